import Verif.Files.Formats
import Verif.Files.GlobProps
import Verif.Grib.ProtobufProps

/-!
# C125: the formats
-/

namespace Fimex.Formats

open Fimex.Glob Fimex.Text

/-! ## Types -/

/-- The documented names of the netCDF types. -/
def netcdfNames : List (List Char) :=
  ["nc".toList, "nc4".toList, "netcdf".toList, "netcdf4".toList, "nc4c".toList, "nc4classic".toList, "netcdf4classic".toList,
    "nc3".toList, "cdf".toList, "netcdf3".toList]

/-- The types of each format. -/
def typesOf : Format → List (List Char)
  | .felt => ["felt".toList, "flt".toList, "dat".toList, "felt2".toList, "flt2".toList, "dat2".toList]
  | .grib => ["grib".toList, "grb".toList, "grib1".toList, "grb1".toList, "grib2".toList, "grb2".toList, "grbml".toList, "grbfp".toList]
  | .ncml => ["ncml".toList]
  | .netcdf => netcdfNames ++ netcdfNames.map (· ++ "+rw".toList)
  | .null => ["null".toList]

theorem version_iff (t : List Char) : netcdfVersion t ≠ 0 ↔ t ∈ netcdfNames := by
  unfold netcdfVersion
  by_cases h1 : netcdf4Types.contains t = true
  · rw [if_pos h1]
    refine ⟨fun _ => ?_, fun _ => by decide⟩
    have := List.contains_iff_mem.1 h1
    simp only [netcdf4Types, List.mem_cons, List.not_mem_nil, or_false] at this
    rcases this with rfl | rfl | rfl | rfl <;> decide
  · rw [if_neg h1]
    by_cases h2 : netcdf4ClassicTypes.contains t = true
    · rw [if_pos h2]
      refine ⟨fun _ => ?_, fun _ => by decide⟩
      have := List.contains_iff_mem.1 h2
      simp only [netcdf4ClassicTypes, List.mem_cons, List.not_mem_nil, or_false] at this
      rcases this with rfl | rfl | rfl <;> decide
    · rw [if_neg h2]
      by_cases h3 : netcdf3Types.contains t = true
      · rw [if_pos h3]
        refine ⟨fun _ => ?_, fun _ => by decide⟩
        have := List.contains_iff_mem.1 h3
        simp only [netcdf3Types, List.mem_cons, List.not_mem_nil, or_false] at this
        rcases this with rfl | rfl | rfl <;> decide
      · rw [if_neg h3]
        refine ⟨fun h => absurd rfl h, fun h => ?_⟩
        exfalso
        have key : ∀ x ∈ netcdfNames, netcdf4Types.contains x = true ∨ netcdf4ClassicTypes.contains x = true ∨ netcdf3Types.contains x = true := by
          decide
        rcases key t h with h | h | h
        · exact h1 h
        · exact h2 h
        · exact h3 h

theorem take_drop_word (w r : List Char) (h1 : ∀ c ∈ w, isWord c = true) (h2 : ∀ c ∈ r.head?, isWord c = false) :
    (w ++ r).takeWhile isWord = w ∧ (w ++ r).dropWhile isWord = r := by
  induction w with
  | nil =>
    cases r with
    | nil => exact ⟨rfl, rfl⟩
    | cons c r =>
      have := h2 c (by simp)
      simp [this]
  | cons c w ih =>
    have := ih (fun x hx => h1 x (by simp [hx]))
    have hc := h1 c (by simp)
    simp [hc, this.1, this.2]

theorem names_word : ∀ t ∈ netcdfNames, t ≠ [] ∧ ∀ c ∈ t, isWord c = true := by decide

theorem splitRw_plain (t : List Char) (h0 : t ≠ []) (h : ∀ c ∈ t, isWord c = true) : splitRw t = (t, false) := by
  have := take_drop_word t [] h (by simp)
  rw [List.append_nil] at this
  unfold splitRw
  rw [this.1, this.2]
  simp [h0]

theorem splitRw_rw (t : List Char) (h0 : t ≠ []) (h : ∀ c ∈ t, isWord c = true) : splitRw (t ++ "+rw".toList) = (t, true) := by
  have := take_drop_word t "+rw".toList h (by intro c hc; simp at hc; rw [← hc]; decide)
  unfold splitRw
  rw [this.1, this.2]
  simp [h0]

theorem splitRw_cases (t : List Char) (w : List Char) (b : Bool) (h : splitRw t = (w, b)) (hw : w ≠ []) :
    (b = false ∧ t = w) ∨ (b = true ∧ t = w ++ "+rw".toList) := by
  unfold splitRw at h
  have htd := List.takeWhile_append_dropWhile (p := isWord) (l := t)
  dsimp only at h
  by_cases h1 : t.takeWhile isWord = []
  · rw [if_pos h1, Prod.mk.injEq] at h; exact absurd h.1.symm hw
  · rw [if_neg h1] at h
    by_cases h2 : t.dropWhile isWord = []
    · rw [if_pos h2, Prod.mk.injEq] at h
      left
      rw [h2, List.append_nil] at htd
      exact ⟨h.2.symm, by rw [← h.1, htd]⟩
    · rw [if_neg h2] at h
      by_cases h3 : t.dropWhile isWord = "+rw".toList
      · rw [if_pos h3, Prod.mk.injEq] at h
        right
        refine ⟨h.2.symm, ?_⟩
        rw [← h.1, ← h3, htd]
      · rw [if_neg h3, Prod.mk.injEq] at h; exact absurd h.1.symm hw

theorem ite_pos_iff (p : Prop) [Decidable p] : (0 : Int) < (if p then 1 else 0) ↔ p := by
  by_cases h : p <;> simp [h]

/-- **C125.** The types a format recognises are exactly the ones in the table; a netCDF type may be followed by `+rw`. -/
theorem C125_types (f : Format) (t : List Char) : 0 < typeScore f t ↔ t ∈ typesOf f := by
  cases f with
  | felt =>
    simp only [typeScore, ite_pos_iff, isFeltType, List.contains_iff_mem, typesOf, List.mem_cons, List.not_mem_nil, or_false]
    constructor <;> rintro (h | h | h | h | h | h) <;> subst h <;> decide
  | grib =>
    have : (0 : Int) < typeScore .grib t ↔ (t = grbml ∨ t = grbfp) ∨ isGribType t = true := by
      unfold typeScore
      by_cases h : t = grbml ∨ t = grbfp
      · simp [h]
      · simp only [h, if_false, ite_pos_iff, false_or]
    rw [this]
    simp only [isGribType, isGrib2Type, grbml, grbfp, decide_eq_true_eq, typesOf, List.mem_cons, List.not_mem_nil, or_false]
    constructor
    · rintro ((h | h) | h | h | h | h | h | h) <;> subst h <;> decide
    · rintro (h | h | h | h | h | h | h | h) <;> subst h <;> decide
  | ncml => simp only [typeScore, ite_pos_iff, typesOf, List.mem_singleton]
  | null => simp only [typeScore, ite_pos_iff, typesOf, List.mem_singleton]
  | netcdf =>
    simp only [typeScore, ite_pos_iff, version_iff, typesOf, List.mem_append, List.mem_map]
    constructor
    · intro h
      rcases splitRw_cases t _ _ rfl (names_word _ h).1 with ⟨_, e⟩ | ⟨_, e⟩
      · left; rw [e]; exact h
      · right; exact ⟨_, h, e.symm⟩
    · rintro (h | ⟨a, h, rfl⟩)
      · rw [splitRw_plain t (names_word t h).1 (names_word t h).2]; exact h
      · rw [splitRw_rw a (names_word a h).1 (names_word a h).2]; exact h

/-- **C125.** No type is recognised by two formats. -/
theorem C125_types_exclusive (f g : Format) (t : List Char) (hf : 0 < typeScore f t) (hg : 0 < typeScore g t) : f = g := by
  rw [C125_types] at hf hg
  have key : ∀ t ∈ typesOf f, t ∈ typesOf g → f = g := by
    cases f <;> cases g <;> decide
  exact key t hf hg

example : 0 < typeScore .netcdf "nc4+rw".toList ∧ ¬ 0 < typeScore .netcdf "grb+rw".toList ∧ typeScore .grib "grb2".toList = 1 := by decide

/-! ## First bytes -/

theorem sameBytes_long (p : List Nat) : ∀ m : List Nat, p.length ≤ m.length → ∃ b, sameBytes p m = .ok b ∧ (b = true ↔ p <+: m) := by
  induction p with
  | nil => intro m _; exact ⟨true, rfl, by simp⟩
  | cons x p ih =>
    intro m hm
    cases m with
    | nil => simp at hm
    | cons y m =>
      by_cases h : x ≠ y
      · refine ⟨false, by rw [sameBytes, if_pos h], ?_⟩
        simp [List.cons_prefix_cons, h]
      · obtain ⟨b, h1, h2⟩ := ih m (by simpa using hm)
        refine ⟨b, by rw [sameBytes, if_neg h, h1], ?_⟩
        simp only [not_not] at h
        rw [h2, h, List.cons_prefix_cons]
        simp

theorem netcdfMagic_spec (m : List Nat) (h : 7 ≤ m.length) :
    ∃ n, netcdfMagic m = .ok n ∧ (n = 1 ∨ n = 0) ∧ (0 < n ↔ hdf5 <+: m ∨ cdf1 <+: m) := by
  obtain ⟨a, a1, a2⟩ := sameBytes_long hdf5 m (by simpa [hdf5] using h)
  obtain ⟨b, b1, b2⟩ := sameBytes_long cdf1 m (by simp [cdf1]; omega)
  unfold netcdfMagic andThen
  rw [a1, b1, if_pos (by simp; omega), if_pos (by simpa using h)]
  simp only [Res.bind]
  cases a with
  | true => exact ⟨1, by simp, Or.inl rfl, by simpa using Or.inl (a2.1 rfl)⟩
  | false =>
    have ha : ¬ hdf5 <+: m := fun h => by simpa using a2.2 h
    cases b with
    | true => exact ⟨1, by simp, Or.inl rfl, by simpa using Or.inr (b2.1 rfl)⟩
    | false =>
      have hb : ¬ cdf1 <+: m := fun h => by simpa using b2.2 h
      exact ⟨0, by simp, Or.inr rfl, by simp [ha, hb]⟩

theorem strncmp_grib (m : List Nat) : Pb.strncmpEq 4 m gribBytes = true ↔ gribBytes <+: m := by
  have key : ∀ (p : List Nat), (∀ x ∈ p, x ≠ 0) → ∀ m, Pb.strncmpEq p.length m p = true ↔ p <+: m := by
    intro p
    induction p with
    | nil => intro _ m; simp [Pb.strncmpEq]
    | cons x p ih =>
      intro hp m
      cases m with
      | nil => simp [Pb.strncmpEq]
      | cons y m =>
        simp only [List.length_cons, Pb.strncmpEq]
        by_cases h : y = x
        · subst h
          have h0 := hp y (by simp)
          rw [if_pos rfl, if_neg h0, ih (fun z hz => hp z (by simp [hz])), List.cons_prefix_cons]
          simp
        · rw [if_neg h, List.cons_prefix_cons]
          simp [Ne.symm h]
  exact key gribBytes (by decide) m

theorem gribMagic_spec (m : List Nat) : ∃ n, gribMagic m = .ok n ∧ (n = 1 ∨ n = 0) ∧
    (0 < n ↔ gribBytes <+: m ∨ Pb.checkMagic m = true) := by
  unfold gribMagic
  have hl : gribBytes <+: m → 4 ≤ m.length := fun h => by simpa [gribBytes] using h.length_le
  by_cases h1 : 4 ≤ m.length ∧ Pb.strncmpEq 4 m gribBytes = true
  · rw [if_pos h1]
    exact ⟨1, rfl, Or.inl rfl, by simpa using Or.inl ((strncmp_grib m).1 h1.2)⟩
  · rw [if_neg h1]
    have hn : ¬ gribBytes <+: m := fun h => h1 ⟨hl h, (strncmp_grib m).2 h⟩
    by_cases h2 : Pb.checkMagic m = true
    · rw [if_pos h2]; exact ⟨1, rfl, Or.inl rfl, by simp [h2]⟩
    · rw [if_neg h2]; exact ⟨0, rfl, Or.inr rfl, by simp [hn, h2]⟩

/-- **C125.** With the number of first bytes any format asks for, no byte behind them is read.  They are taken for netCDF exactly if they begin
with the signature of HDF5 (its first seven bytes) or of the classic netCDF format, and for GRIB exactly if they begin with `GRIB` or are
those of an index file. -/
theorem C125_first_bytes (m : List Nat) (h : ∀ f, magicSize f ≤ m.length) (f : Format) : ∃ n, magicScore f m = .ok n ∧
    (0 < n ↔ (f = .netcdf ∧ (hdf5 <+: m ∨ cdf1 <+: m)) ∨ (f = .grib ∧ (gribBytes <+: m ∨ Pb.checkMagic m = true))) := by
  cases f with
  | felt => exact ⟨0, rfl, by simp⟩
  | ncml => exact ⟨0, rfl, by simp⟩
  | null => exact ⟨0, rfl, by simp⟩
  | netcdf =>
    obtain ⟨n, h1, _, h2⟩ := netcdfMagic_spec m (h .netcdf)
    exact ⟨n, h1, by simpa using h2⟩
  | grib =>
    obtain ⟨n, h1, _, h2⟩ := gribMagic_spec m
    exact ⟨n, h1, by simpa using h2⟩

/-- **C125.** No first bytes are recognised by two formats. -/
theorem C125_first_bytes_exclusive (m : List Nat) (h : ∀ f, magicSize f ≤ m.length) (f g : Format) (a b : Int)
    (hf : magicScore f m = .ok a) (ha : 0 < a) (hg : magicScore g m = .ok b) (hb : 0 < b) : f = g := by
  obtain ⟨a', e1, e2⟩ := C125_first_bytes m h f
  obtain ⟨b', e3, e4⟩ := C125_first_bytes m h g
  rw [hf] at e1; rw [hg] at e3
  simp only [Res.ok.injEq] at e1 e3
  subst e1; subst e3
  have hx := e2.1 ha
  have hy := e4.1 hb
  have hd : ¬ ((hdf5 <+: m ∨ cdf1 <+: m) ∧ (gribBytes <+: m ∨ Pb.checkMagic m = true)) := by
    rintro ⟨h1, h2⟩
    rw [Pb.C73_magic_accepted_iff] at h2
    cases m with
    | nil => rcases h1 with h1 | h1 <;> simp [hdf5, cdf1] at h1
    | cons x m =>
      have hx1 : x = 137 ∨ x = 67 := by
        rcases h1 with h1 | h1
        · exact Or.inl (List.cons_prefix_cons.1 h1).1.symm
        · exact Or.inr (List.cons_prefix_cons.1 h1).1.symm
      have hx2 : x = 71 ∨ x = 70 := by
        rcases h2 with h2 | h2
        · exact Or.inl (List.cons_prefix_cons.1 h2).1.symm
        · right
          have := h2.2.1
          simp only [List.take_succ_cons, List.cons.injEq] at this
          exact this.1
      omega
  rcases hx with ⟨rfl, hx⟩ | ⟨rfl, hx⟩ <;> rcases hy with ⟨rfl, hy⟩ | ⟨rfl, hy⟩
  · rfl
  · exact absurd ⟨hx, hy⟩ hd
  · exact absurd ⟨hy, hx⟩ hd
  · rfl

example : (∀ f, magicSize f ≤ 12) ∧ magicScore .netcdf (hdf5 ++ [10, 0, 0, 0, 0]) = .ok 1 ∧
    magicScore .grib ([71, 82, 73, 66] ++ List.replicate 8 0) = .ok 1 := by
  refine ⟨by intro f; cases f <;> decide, by decide, by decide⟩

/-- The two lengths are exchanged: with four to six bytes that agree with the signature of HDF5, bytes behind the buffer are read, and with four
to six bytes the classic signature is not recognised. -/
theorem C125_short_buffer (m : List Nat) (h1 : 4 ≤ m.length) (h2 : m.length < 7) :
    (m <+: hdf5 → netcdfMagic m = .ub) ∧ (cdf1 <+: m → netcdfMagic m = .ok 0) := by
  have key : ∀ p m : List Nat, m <+: p → m.length < p.length → sameBytes p m = .ub := by
    intro p
    induction p with
    | nil => intro m _ h; simp at h
    | cons x p ih =>
      intro m hm hl
      cases m with
      | nil => rfl
      | cons y m =>
        obtain ⟨rfl, hm'⟩ := List.cons_prefix_cons.1 hm
        rw [sameBytes, if_neg (by simp)]
        exact ih m hm' (by simpa using hl)
  refine ⟨fun hm => ?_, fun hm => ?_⟩
  · unfold netcdfMagic andThen
    rw [if_pos (by simpa using h1), key hdf5 m hm (by simpa [hdf5] using h2)]
    rfl
  · obtain ⟨r, rfl⟩ := hm
    unfold netcdfMagic andThen
    rw [if_pos (by simpa using h1), if_neg (by simpa using h2)]
    rfl

/-- Files of the 64 bit variants of the classic format are not recognised by their first bytes. -/
theorem C125_other_classic_formats (v : Nat) (rest : List Nat) (hv : v ≠ 1) (h : 3 ≤ rest.length) :
    netcdfMagic ([67, 68, 70, v] ++ rest) = .ok 0 := by
  obtain ⟨n, h1, h2, h3⟩ := netcdfMagic_spec ([67, 68, 70, v] ++ rest) (by simp; omega)
  rw [h1]
  have : ¬ 0 < n := by
    rw [h3]
    rintro (h | h)
    · simp [hdf5] at h
    · simp only [cdf1, List.cons_append, List.nil_append, List.cons_prefix_cons] at h
      exact hv h.2.2.2.1.symm
  congr 1
  rcases h2 with rfl | rfl
  · simp at this
  · rfl

/-! ## Names -/

theorem matchAll_lits (a : List Char) (is : List Item) (t : List Char) :
    matchAll (lits a ++ is) t = true ↔ ∃ r, t = a ++ r ∧ matchAll is r = true := by
  induction a generalizing t with
  | nil => simp [lits]
  | cons c a ih =>
    have e : lits (c :: a) ++ is = ⟨.lit c, false⟩ :: (lits a ++ is) := rfl
    rw [e]
    cases t with
    | nil => simp [matchAll]
    | cons x t =>
      rw [matchAll, Bool.and_eq_true, ih]
      simp only [Set.has, decide_eq_true_eq, List.cons_append, List.cons.injEq]
      constructor
      · rintro ⟨rfl, r, rfl, h⟩; exact ⟨r, ⟨rfl, rfl⟩, h⟩
      · rintro ⟨r, ⟨rfl, rfl⟩, h⟩; exact ⟨rfl, r, rfl, h⟩

/-- On one line. -/
def OneLine (s : List Char) : Prop := ∀ c ∈ s, c ≠ '\n' ∧ c ≠ '\r'

theorem matchAll_dots (is : List Item) (t : List Char) :
    matchAll (dots ++ is) t = true ↔ ∃ u r, t = u ++ r ∧ OneLine u ∧ matchAll is r = true := by
  have e : dots ++ is = ⟨.any, true⟩ :: is := rfl
  rw [e, matchAll, starMatch_iff]
  constructor
  · rintro ⟨u, r, h1, h2, h3⟩
    exact ⟨u, r, h1, fun c hc => (any_has c).1 (h2 c hc), h3⟩
  · rintro ⟨u, r, h1, h2, h3⟩
    exact ⟨u, r, h1, fun c hc => (any_has c).2 (h2 c hc), h3⟩

/-- **C125.** A file is taken for a zarr store exactly if its name is `file:`, anything, `#`, anything, `mode=`, anything, `zarr`, anything, on
one line. -/
theorem C125_zarr (s : List Char) : isZarr s = true ↔ ∃ a b c d : List Char, OneLine a ∧ OneLine b ∧ OneLine c ∧ OneLine d ∧
    s = "file:".toList ++ a ++ "#".toList ++ b ++ "mode=".toList ++ c ++ "zarr".toList ++ d := by
  unfold isZarr zarrItems
  have e : dots = dots ++ [] := by simp
  conv_lhs => rw [show lits "file:".toList ++ dots ++ lits "#".toList ++ dots ++ lits "mode=".toList ++ dots ++ lits "zarr".toList ++ dots =
    lits "file:".toList ++ (dots ++ (lits "#".toList ++ (dots ++ (lits "mode=".toList ++ (dots ++ (lits "zarr".toList ++ (dots ++ []))))))) by
      simp only [List.append_assoc, List.append_nil]]
  simp only [matchAll_lits, matchAll_dots]
  constructor
  · rintro ⟨_, rfl, a, _, rfl, ha, _, rfl, b, _, rfl, hb, _, rfl, c, _, rfl, hc, _, rfl, d, r, rfl, hd, hr⟩
    rw [matchAll, List.isEmpty_iff] at hr
    subst hr
    exact ⟨a, b, c, d, ha, hb, hc, hd, by simp only [List.append_assoc, List.append_nil]⟩
  · rintro ⟨a, b, c, d, ha, hb, hc, hd, rfl⟩
    refine ⟨_, ?_, a, _, rfl, ha, _, rfl, b, _, rfl, hb, _, rfl, c, _, rfl, hc, _, rfl, d, [], rfl, hd, rfl⟩
    simp only [List.append_assoc, List.append_nil]

example : isZarr "file:///x.zarr#mode=nczarr,file".toList = true ∧ isZarr "file:///x.nc".toList = false := by decide

theorem nameScore_type (f : Format) (n : List Char) (h1 : f ≠ .netcdf) (h2 : f ≠ .null) : nameScore f n = typeScore f (extension n) := by
  cases f <;> first | rfl | exact absurd rfl h1 | exact absurd rfl h2

theorem score_le_one (f : Format) (t : List Char) : typeScore f t ≤ 1 := by
  cases f <;> simp only [typeScore] <;> split_ifs <;> decide

/-- **C125.** A name that is neither a URL of the schemes of OPeNDAP nor a zarr store is recognised by at most one format: netCDF for the
extensions `nc` and `nc4`, and otherwise the format of which the extension is a type. -/
theorem C125_names_exclusive (n : List Char) (hu : ∀ s ∈ scheme n, s ∉ urlSchemes) (hz : isZarr n = false) :
    (∀ f g : Format, 0 < nameScore f n → 0 < nameScore g n → f = g) ∧
    (0 < nameScore .netcdf n ↔ extension n = "nc".toList ∨ extension n = "nc4".toList) ∧
    (∀ f, f ≠ .netcdf → (0 < nameScore f n ↔ f ≠ .null ∧ extension n ∈ typesOf f)) := by
  have hs : (scheme n).any urlSchemes.contains = false := by
    cases h : scheme n with
    | none => rfl
    | some s =>
      have := hu s (by rw [h]; rfl)
      simpa using this
  have hnc : 0 < nameScore .netcdf n ↔ extension n = "nc".toList ∨ extension n = "nc4".toList := by
    simp only [nameScore, hs, hz]
    by_cases h : extension n = "nc".toList ∨ extension n = "nc4".toList
    · rw [if_pos h]; simp only [h, iff_true]; decide
    · rw [if_neg h]; simp only [h, iff_false]; decide
  have hot : ∀ f, f ≠ .netcdf → (0 < nameScore f n ↔ f ≠ .null ∧ extension n ∈ typesOf f) := by
    intro f h1
    by_cases h2 : f = .null
    · rw [h2]; simp [nameScore]
    · rw [nameScore_type f n h1 h2, C125_types]; simp [h2]
  refine ⟨?_, hnc, hot⟩
  have nct : ∀ f : Format, f ≠ .netcdf → (extension n = "nc".toList ∨ extension n = "nc4".toList) → extension n ∉ typesOf f := by
    intro f h1 h2
    rcases h2 with h2 | h2 <;> rw [h2] <;> cases f <;> first | (exact absurd rfl h1) | decide
  intro f g hf hg
  by_cases h1 : f = .netcdf
  · by_cases h2 : g = .netcdf
    · rw [h1, h2]
    · rw [h1] at hf
      exact absurd ((hot g h2).1 hg).2 (nct g h2 (hnc.1 hf))
  · by_cases h2 : g = .netcdf
    · rw [h2] at hg
      exact absurd ((hot f h1).1 hf).2 (nct f h1 (hnc.1 hg))
    · exact C125_types_exclusive f g (extension n) ((C125_types _ _).2 ((hot f h1).1 hf).2) ((C125_types _ _).2 ((hot g h2).1 hg).2)

/-- **C125.** A URL of the schemes of OPeNDAP goes to netCDF whatever its extension. -/
theorem C125_url (n s : List Char) (hs : scheme n = some s) (h : s ∈ urlSchemes) (f : Format) (hf : f ≠ .netcdf) :
    nameScore f n < nameScore .netcdf n ∨ (nameScore f n ≤ 0 ∧ 0 < nameScore .netcdf n) := by
  have ha : (scheme n).any urlSchemes.contains = true := by rw [hs]; simpa using h
  by_cases he : extension n = "nc".toList ∨ extension n = "nc4".toList
  · right
    refine ⟨?_, by rw [nameScore, if_pos he]; decide⟩
    by_cases h2 : f = .null
    · rw [h2]; exact le_refl (0 : Int)
    · rw [nameScore_type f n hf h2]
      rcases he with he | he <;> rw [he] <;> cases f <;> first | (exact absurd rfl hf) | decide
  · left
    have e : nameScore .netcdf n = 2 := by simp only [nameScore, if_neg he, ha, if_true]
    rw [e]
    by_cases h2 : f = .null
    · rw [h2]; show (0 : Int) < 2; decide
    · rw [nameScore_type f n hf h2]
      have := score_le_one f (extension n)
      omega

example : scheme "http://a/b.grb".toList = some "http".toList ∧ nameScore .netcdf "http://a/b.grb".toList = 2 ∧
    nameScore .grib "http://a/b.grb".toList = 1 ∧ scheme "a/b://c".toList = none := by decide

/-- A name of a zarr store may have the extension of another format: then two formats claim it with the same score. -/
theorem C125_zarr_clash : nameScore .netcdf "file:x#mode=zarr.grb".toList = 1 ∧ nameScore .grib "file:x#mode=zarr.grb".toList = 1 := by decide

/-- The types `nc3`, `cdf` and the like are not recognised as extensions. -/
theorem C125_extension_cdf : nameScore .netcdf "a.cdf".toList = 0 ∧ nameScore .netcdf "a.nc3".toList = 0 := by decide

/-! ## What is opened -/

theorem isPrefixOf_append (p s : List Char) : p.isPrefixOf (p ++ s) = true := by simp

theorem replaceStart_pos (pat w s : List Char) : replaceStart pat w (pat ++ s) = w ++ s := by
  unfold replaceStart
  rw [if_pos (isPrefixOf_append pat s)]
  simp

theorem replaceStart_neg (pat w s : List Char) (h : ¬ pat <+: s) : replaceStart pat w s = s := by
  unfold replaceStart
  rw [if_neg (by simpa using h)]

/-- **C125.** What netCDF opens for a name that is no pattern, if the file is not to be changed: `file:` is taken off unless the name is that of
a zarr store, `dods:` is replaced by `http:`, any other name is kept. -/
theorem C125_netcdf_opens (type : List Char) (config : Bool) (ht : (splitRw type).2 = false) :
    (∀ p : List Char, isZarr ("file:".toList ++ p) = false → ¬ "dods:".toList <+: p →
      netcdfReader type ("file:".toList ++ p) config = .ok (.file p false, config)) ∧
    (∀ n, isZarr n = true → netcdfReader type n config = .ok (.file n false, config)) ∧
    (∀ p : List Char, netcdfReader type ("dods:".toList ++ p) config = .ok (.file ("http:".toList ++ p) false, config)) ∧
    (∀ n, ¬ "glob:".toList <+: n → ¬ "file:".toList <+: n → ¬ "dods:".toList <+: n → netcdfReader type n config = .ok (.file n false, config)) ∧
    (∀ p : List Char, netcdfReader type ("glob:".toList ++ p) config = .ok (.glob p, config)) := by
  have zf : ∀ n, isZarr n = true → "file:".toList <+: n := by
    intro n h
    obtain ⟨a, b, c, d, _, _, _, _, rfl⟩ := (C125_zarr n).1 h
    refine ⟨a ++ "#".toList ++ b ++ "mode=".toList ++ c ++ "zarr".toList ++ d, ?_⟩
    simp only [List.append_assoc]
  have base : ∀ n, ¬ "glob:".toList <+: n → netcdfReader type n config = .ok (.file (netcdfPath n) false, config) := by
    intro n hn
    unfold netcdfReader
    rw [ht, if_neg (by decide), if_neg (by rw [List.isPrefixOf_iff_prefix]; exact hn)]
  have fg : ∀ n : List Char, "file:".toList <+: n → ¬ "glob:".toList <+: n := by
    rintro n ⟨r, rfl⟩ h
    obtain ⟨q, h⟩ := h
    simp at h
  have fd : ∀ n : List Char, "file:".toList <+: n → ¬ "dods:".toList <+: n := by
    rintro n ⟨r, rfl⟩ h
    obtain ⟨q, h⟩ := h
    simp at h
  refine ⟨?_, ?_, ?_, ?_, ?_⟩
  · intro p hz hd
    rw [base _ (fg _ ⟨p, rfl⟩)]
    unfold netcdfPath
    rw [hz]
    simp only [Bool.false_eq_true, if_false]
    rw [replaceStart_pos, List.nil_append, replaceStart_neg _ _ _ hd]
  · intro n hz
    rw [base _ (fg _ (zf n hz))]
    unfold netcdfPath
    rw [hz]
    simp only [if_true]
    rw [replaceStart_neg _ _ _ (fd _ (zf n hz))]
  · intro p
    have h1 : ¬ "glob:".toList <+: "dods:".toList ++ p := by rintro ⟨q, h⟩; simp at h
    have h2 : ¬ "file:".toList <+: "dods:".toList ++ p := by rintro ⟨q, h⟩; simp at h
    have hz : isZarr ("dods:".toList ++ p) = false := by
      cases hx : isZarr ("dods:".toList ++ p) with
      | false => rfl
      | true => exact absurd (zf _ hx) h2
    rw [base _ h1]
    unfold netcdfPath
    rw [hz]
    simp only [Bool.false_eq_true, if_false]
    rw [replaceStart_neg _ _ _ h2, replaceStart_pos]
  · intro n h1 h2 h3
    have hz : isZarr n = false := by
      cases hx : isZarr n with
      | false => rfl
      | true => exact absurd (zf _ hx) h2
    rw [base _ h1]
    unfold netcdfPath
    rw [hz]
    simp only [Bool.false_eq_true, if_false]
    rw [replaceStart_neg _ _ _ h2, replaceStart_neg _ _ _ h3]
  · intro p
    unfold netcdfReader
    rw [ht, if_neg (by decide), if_pos (isPrefixOf_append _ _)]
    rfl

example : (splitRw "nc".toList).2 = false ∧ netcdfReader "nc".toList "file:/a.nc".toList false = .ok (.file "/a.nc".toList false, false) ∧
    netcdfReader "nc".toList "file:dods:/a".toList true = .ok (.file "http:/a".toList false, true) := by decide

/-- **C125.** A netCDF file to be changed cannot have a configuration; its name is used as it is, with `file:` if it has that. -/
theorem C125_netcdf_writeable (t n : List Char) (ht : t ∈ netcdfNames) :
    netcdfReader (t ++ "+rw".toList) n true = .throws ∧ netcdfReader (t ++ "+rw".toList) n false = .ok (.file n true, false) := by
  have := splitRw_rw t (names_word t ht).1 (names_word t ht).2
  unfold netcdfReader
  rw [this]
  simp

/-- **C125.** The version of netCDF that is written. -/
theorem C125_netcdf_version (t : List Char) :
    (t ∈ netcdf3Types → netcdfWriter t = 3) ∧ (t ∈ netcdf4ClassicTypes → netcdfWriter t = 4) ∧
    (t ∉ netcdf3Types → t ∉ netcdf4ClassicTypes → netcdfWriter t = 5) := by
  refine ⟨?_, ?_, ?_⟩
  · have : ∀ t ∈ netcdf3Types, netcdfWriter t = 3 := by decide
    exact this t
  · have : ∀ t ∈ netcdf4ClassicTypes, netcdfWriter t = 4 := by decide
    exact this t
  · intro h3 h4
    have h3' : netcdf3Types.contains t = false := by simpa using h3
    have h4' : netcdf4ClassicTypes.contains t = false := by simpa using h4
    unfold netcdfWriter netcdfVersion
    rw [h3', h4']
    by_cases h : netcdf4Types.contains t = true
    · rw [if_pos h]; decide
    · rw [if_neg h]; decide

/-! ## Members and files of GRIB -/

theorem tokens_words (s d : List Char) : tokens s d = .ok (words d.contains s) := by
  unfold tokens
  rw [C26_tokenize_is_words s d (s.length + 1) (by omega)]
  rfl

theorem colon_false (a : List Char) (h : ':' ∉ a) : ∀ x ∈ a, (":".toList.contains x) = false := by
  intro x hx
  have : x ≠ ':' := by rintro rfl; exact h hx
  simpa using this

theorem member_one (a : List Char) (ha : a ≠ []) (h : ':' ∉ a) : member a = .ok (a, a) := by
  unfold member
  rw [tokens_words, words_last _ a ha (colon_false a h)]
  rfl

theorem member_two (a b : List Char) (ha : a ≠ []) (h : ':' ∉ a) (hb : b ≠ []) (h' : ':' ∉ b) : member (a ++ ':' :: b) = .ok (b, a) := by
  unfold member
  have e : words ":".toList.contains (a ++ ':' :: b) = [a, b] := by
    rw [words_word _ a ':' b ha (colon_false a h) (by decide)]
    have := words_delims ":".toList.contains [':'] b (by decide)
    rw [List.singleton_append] at this
    rw [this, words_last _ b hb (colon_false b h')]
  rw [tokens_words, e]
  rfl

/-- **C125.** An argument `memberName:a:b` makes a member with the name `b` (`a`, if there is no `b`) and an expression that, as a regular
expression, matches exactly the texts on one line that contain `a`; `memberRegex:a:b` one with the expression `a`. -/
theorem C125_member (a b : List Char) (ha : a ≠ []) (h : ':' ∉ a) (hb : b ≠ []) (h' : ':' ∉ b) (h1 : OneLine a) (rest : List (List Char))
    (ms : List (List Char × List Char)) (fs : List (List Char)) (hr : parseArgs rest = .ok (ms, fs)) :
    parseArgs (("memberRegex:".toList ++ (a ++ ':' :: b)) :: rest) = .ok ((b, a) :: ms, fs) ∧
    parseArgs (("memberRegex:".toList ++ a) :: rest) = .ok ((a, a) :: ms, fs) ∧
    ∃ e items, parseArgs (("memberName:".toList ++ (a ++ ':' :: b)) :: rest) = .ok ((b, e) :: ms, fs) ∧
      parseArgs (("memberName:".toList ++ a) :: rest) = .ok ((a, e) :: ms, fs) ∧
      parse e.length e = some items ∧ ∀ t, matchAll items t = true ↔ OneLine t ∧ a <:+: t := by
  have pr : ∀ x : List Char, "memberRegex:".toList.isPrefixOf ("memberRegex:".toList ++ x) = true := isPrefixOf_append _
  have pn : ∀ x : List Char, "memberName:".toList.isPrefixOf ("memberName:".toList ++ x) = true := isPrefixOf_append _
  have pf : ∀ x : List Char, "memberRegex:".toList.isPrefixOf ("memberName:".toList ++ x) = false := by intro x; rfl
  have dr : ∀ x : List Char, ("memberRegex:".toList ++ x).drop 12 = x := by intro x; rfl
  have dn : ∀ x : List Char, ("memberName:".toList ++ x).drop 11 = x := by intro x; rfl
  refine ⟨?_, ?_, ?_⟩
  · rw [parseArgs, if_pos (pr _), dr, member_two a b ha h hb h', hr]; rfl
  · rw [parseArgs, if_pos (pr _), dr, member_one a ha h, hr]; rfl
  · refine ⟨".*".toList ++ regexEscape a ++ ".*".toList, dots ++ (lits a ++ dots), ?_, ?_, ?_, ?_⟩
    · rw [parseArgs, pf, if_neg (by decide), if_pos (pn _), dn, member_two a b ha h hb h', hr]; rfl
    · rw [parseArgs, pf, if_neg (by decide), if_pos (pn _), dn, member_one a ha h, hr]; rfl
    · have esc : ∀ (a : List Char) (n : Nat), (regexEscape a).length + 2 ≤ n → parse n (regexEscape a ++ ".*".toList) = some (lits a ++ dots) ∧
          (starNext (regexEscape a ++ ".*".toList)) = (false, regexEscape a ++ ".*".toList) := by
        intro a
        induction a with
        | nil =>
          intro n hn
          obtain ⟨n, rfl⟩ : ∃ m, n = m + 2 := ⟨n - 2, by simp [regexEscape] at hn; omega⟩
          exact ⟨rfl, rfl⟩
        | cons c a ih =>
          intro n hn
          have e : regexEscape (c :: a) = regexEscape [c] ++ regexEscape a := by
            simp only [regexEscape]
            split <;> rfl
          have hl : 1 ≤ (regexEscape [c]).length := by rw [escape_one]; split <;> simp
          rw [e, List.length_append] at hn
          obtain ⟨n, rfl⟩ : ∃ m, n = m + 1 := ⟨n - 1, by omega⟩
          obtain ⟨i1, i2⟩ := ih n (by omega)
          rw [e, List.append_assoc]
          refine ⟨?_, ?_⟩
          · rw [parse_step n _ _ _ (atom_escape c _), i2, i1]; rfl
          · rw [escape_one]
            by_cases hc : isOperator c = true
            · simp [hc, starNext]
            · rw [if_neg hc]
              have hc' : c ≠ '*' := by rintro rfl; exact hc rfl
              simp only [List.singleton_append]
              unfold starNext
              split
              · rename_i heq; simp at heq; exact absurd heq.1 hc'
              · rfl
      have hlen : (".*".toList ++ regexEscape a ++ ".*".toList).length = ((regexEscape a).length + 3) + 1 := by simp
      rw [hlen, List.append_assoc]
      have ha2 : atom (".*".toList ++ (regexEscape a ++ ".*".toList)) = some (.any, '*' :: (regexEscape a ++ ".*".toList)) := rfl
      rw [parse_step _ _ _ _ ha2]
      show (parse _ (regexEscape a ++ ".*".toList)).map _ = _
      rw [(esc a _ (by omega)).1]
      rfl
    · intro t
      have e : dots ++ (lits a ++ dots) = dots ++ (lits a ++ (dots ++ [])) := by simp
      rw [e, matchAll_dots]
      simp only [matchAll_lits, matchAll_dots]
      constructor
      · rintro ⟨u, _, rfl, hu, _, rfl, v, r, rfl, hv, hr⟩
        rw [matchAll, List.isEmpty_iff] at hr
        subst hr
        refine ⟨?_, u, v, by simp⟩
        intro c hc
        simp only [List.append_nil, List.mem_append] at hc
        rcases hc with hc | hc | hc
        · exact hu c hc
        · exact h1 c hc
        · exact hv c hc
      · rintro ⟨ht, u, v, rfl⟩
        refine ⟨u, a ++ v, by simp, fun c hc => ht c (by simp [hc]), v, rfl, v, [], by simp, fun c hc => ht c (by simp [hc]), rfl⟩

example : parseArgs ["memberName:ens.1:first".toList, "x.grb".toList, "memberRegex:e[0-9]".toList] =
    .ok ([("first".toList, ".*ens\\.1.*".toList), ("e[0-9]".toList, "e[0-9]".toList)], ["x.grb".toList]) := by decide

/-- **C125.** A member without anything behind the colon raises `out_of_range`. -/
theorem C125_member_missing (s : List Char) (h : ∀ c ∈ s, c = ':') (rest : List (List Char)) :
    parseArgs (("memberName:".toList ++ s) :: rest) = .throws ∧ parseArgs (("memberRegex:".toList ++ s) :: rest) = .throws := by
  have hm : member s = .throws := by
    unfold member
    rw [tokens_words, words_nil _ s (by intro c hc; rw [h c hc]; decide)]
    rfl
  have pf : "memberRegex:".toList.isPrefixOf ("memberName:".toList ++ s) = false := rfl
  have dr : ("memberRegex:".toList ++ s).drop 12 = s := rfl
  have dn : ("memberName:".toList ++ s).drop 11 = s := rfl
  refine ⟨?_, ?_⟩
  · rw [parseArgs, pf, if_neg (by decide), if_pos (isPrefixOf_append _ _), dn, hm]; rfl
  · rw [parseArgs, if_pos (isPrefixOf_append _ _), dr, hm]; rfl

/-- An expression with colons is cut at the first one, and the next piece becomes the name. -/
theorem C125_regex_cut : parseArgs ["memberRegex:e[[:digit:]]+:ens".toList] = .ok ([("digit".toList, "e[[".toList)], []) := by decide

/-- **C125.** Arguments that are not members are further files, in order. -/
theorem C125_further_files (args : List (List Char)) (h : ∀ a ∈ args, ¬ "memberRegex:".toList <+: a ∧ ¬ "memberName:".toList <+: a) :
    parseArgs args = .ok ([], args) := by
  induction args with
  | nil => rfl
  | cons a as ih =>
    obtain ⟨h1, h2⟩ := h a (by simp)
    rw [parseArgs, if_neg (by rw [List.isPrefixOf_iff_prefix]; exact h1), if_neg (by rw [List.isPrefixOf_iff_prefix]; exact h2),
      ih (fun x hx => h x (by simp [hx]))]
    rfl

/-- **C125.** `many:` and a separator name several files: a list of non-empty names without the separator is recovered from the text. -/
theorem C125_many (glob : List Char → Res (List (List Char))) (lines : List Char → List (List Char)) (sep : Char) (fs : List (List Char))
    (hn : fs ≠ []) (h : ∀ f ∈ fs, f ≠ [] ∧ sep ∉ f) : gribFiles glob lines ("many:".toList ++ sep :: join fs [sep]) = .ok fs := by
  have hj : 1 ≤ (join fs [sep]).length := by
    rw [Nat.one_le_iff_ne_zero, ne_eq, List.length_eq_zero_iff]
    intro h0
    have := C26_tokenize_of_join fs [sep] [sep] ((join fs [sep]).length + 1) (by omega)
      (fun t ht => ⟨(h t ht).1, fun c hc => by simp; rintro rfl; exact (h t ht).2 hc⟩) (by simp) (by simp)
    rw [h0, C26_tokenize_is_words _ _ _ (by simp)] at this
    simp only [Option.some.injEq, Res.ok.injEq] at this
    exact hn (by rw [← this]; rfl)
  have hg : "glob:".toList.isPrefixOf ("many:".toList ++ sep :: join fs [sep]) = false := rfl
  have hl : ("many:".toList ++ sep :: join fs [sep]).length > 6 := by simp; omega
  unfold gribFiles
  rw [hg, if_neg (by decide), if_pos ⟨isPrefixOf_append _ _, hl⟩]
  show tokens (join fs [sep]) [sep] = _
  unfold tokens
  rw [C26_tokenize_of_join fs [sep] [sep] ((join fs [sep]).length + 1) (by omega)
      (fun t ht => ⟨(h t ht).1, fun c hc => by simp; rintro rfl; exact (h t ht).2 hc⟩) (by simp) (by simp)]
  rfl

example : gribFiles (fun _ => .throws) (fun _ => []) "many:,a.grb,b.grb".toList = .ok ["a.grb".toList, "b.grb".toList] := by decide

/-- **C125.** GRIB files and GrbML files need a configuration, index files do not; the files opened are those named by the name followed by the
further arguments. -/
theorem C125_grib_opens (glob : List Char → Res (List (List Char))) (lines : List Char → List (List Char)) (type name : List Char)
    (config : Bool) (args : List (List Char)) (src : GribSource) (h : gribReader glob lines type name config args = .ok src) :
    (∃ ms fs, (type = grbml ∨ extension name = grbml) ∧ config = true ∧ parseArgs args = .ok (ms, fs) ∧ src = .grbml name ms) ∨
    (type ≠ grbml ∧ extension name ≠ grbml ∧ (type = grbfp ∨ extension name = grbfp) ∧ src = .index name config) ∨
    (∃ ms fs more, type ≠ grbml ∧ extension name ≠ grbml ∧ type ≠ grbfp ∧ extension name ≠ grbfp ∧ config = true ∧
      gribFiles glob lines name = .ok fs ∧ parseArgs args = .ok (ms, more) ∧ src = .files (fs ++ more) ms) := by
  unfold gribReader at h
  by_cases h1 : type = grbml ∨ extension name = grbml
  · rw [if_pos h1] at h
    obtain ⟨r, e1, h⟩ := Res.bind_eq_ok.1 h
    cases config with
    | false => simp at h
    | true =>
      simp only [Bool.not_true, Bool.false_eq_true, if_false, Res.ok.injEq] at h
      exact Or.inl ⟨r.1, r.2, h1, rfl, e1, h.symm⟩
  · rw [if_neg h1] at h
    rw [not_or] at h1
    by_cases h2 : type = grbfp ∨ extension name = grbfp
    · rw [if_pos h2, Res.ok.injEq] at h
      exact Or.inr (Or.inl ⟨h1.1, h1.2, h2, h.symm⟩)
    · rw [if_neg h2] at h
      rw [not_or] at h2
      obtain ⟨fs, e1, h⟩ := Res.bind_eq_ok.1 h
      obtain ⟨r, e2, h⟩ := Res.bind_eq_ok.1 h
      cases config with
      | false => simp at h
      | true =>
        simp only [Bool.not_true, Bool.false_eq_true, if_false, Res.ok.injEq] at h
        exact Or.inr (Or.inr ⟨r.1, fs, r.2, h1.1, h1.2, h2.1, h2.2, rfl, e1, e2, h.symm⟩)

example : gribReader (fun _ => .throws) (fun _ => []) "grb".toList "many:;a;b".toList true ["c".toList, "memberName:m".toList] =
    .ok (.files ["a".toList, "b".toList, "c".toList] [("m".toList, ".*m.*".toList)]) ∧
    gribReader (fun _ => .throws) (fun _ => []) "grb".toList "x.grbml".toList false [] = .throws ∧
    gribReader (fun _ => .throws) (fun _ => []) "".toList "x.grbfp".toList false [] = .ok (.index "x.grbfp".toList false) := by decide

/-- **C125.** The edition written is 2 if the type or the extension is one of edition 2, otherwise 1 if one of them is a GRIB type; anything else
raises. -/
theorem C125_grib_edition (type name : List Char) (h : type ≠ grbml ∧ extension name ≠ grbml) :
    (gribWriter type name = .ok 2 ↔ ∃ t, (t = type ∨ t = extension name) ∧ (t = "grb2".toList ∨ t = "grib2".toList)) ∧
    (gribWriter type name = .throws ↔ ∀ t, (t = type ∨ t = extension name) → isGribType t = false) := by
  have hs : ∀ t, isGrib2Type t = true → isGribType t = true := by
    intro t ht; simp [isGribType, ht]
  have h2 : ∀ t, isGrib2Type t = true ↔ t = "grb2".toList ∨ t = "grib2".toList := by intro t; simp [isGrib2Type]
  unfold gribWriter
  rw [if_neg (by rw [not_or]; exact h)]
  simp only [← h2]
  clear h2 h
  have s1 := hs type
  have s2 := hs (extension name)
  clear hs
  cases a2 : isGrib2Type type <;> cases b2 : isGrib2Type (extension name) <;>
    cases a1 : isGribType type <;> cases b1 : isGribType (extension name) <;>
    simp_all

example : gribWriter "grb".toList "x".toList = .ok 1 ∧ gribWriter "".toList "x.grib2".toList = .ok 2 ∧ gribWriter "grb1".toList "x.nc".toList = .ok 1 := by
  decide

/-- The type does not win over the extension: edition 2 is written although edition 1 is asked for. -/
theorem C125_edition_of_extension : gribWriter "grib1".toList "out.grb2".toList = .ok 2 := by decide

end Fimex.Formats
