import Verif.CoordSys.ProjTable

/-!
# C101: projections and their texts
-/

namespace Fimex.Proj

variable {K : Type}

/-! ## Words of a text -/

/-- **C101.** What is found for a key is the first word behind it: no blank in it, up to a blank or the end. -/
theorem C101_word (key : String) (s : Text) :
    match word key s with
    | some w => (∃ pre post, s = pre ++ plus key ++ w ++ post ∧ (∀ c r, post = c :: r → Cf.isSpace c = true) ∧
          ∀ pre' w' post', Says noSpace [plus key] s pre' w' post' → pre.length ≤ pre'.length) ∧
        w ≠ [] ∧ ∀ c ∈ w, Cf.isSpace c = false
    | none => ∀ pre w post, s = pre ++ plus key ++ w ++ post → w ≠ [] → ∃ c ∈ w, Cf.isSpace c = true := by
  have h := search_spec (ok := noSpace) (ps := [plus key]) (by simp [plus]) s
  show match search noSpace [plus key] s with | some w => _ | none => _
  cases hs : search noSpace [plus key] s with
  | some w =>
    rw [hs] at h
    obtain ⟨pre, post, hsays, hfirst⟩ := h
    obtain ⟨⟨p, hp, ht⟩, ⟨hne, hok⟩, hstop⟩ := hsays
    rw [List.mem_singleton] at hp
    subst hp
    refine ⟨⟨pre, post, ht, fun c r e => ?_, hfirst⟩, hne, fun c hc => ?_⟩
    · have := hstop c r e
      simpa [noSpace] using this
    · have := hok c hc
      simpa [noSpace] using this
  | none =>
    rw [hs] at h
    intro pre w post ht hw
    by_contra hc
    push Not at hc
    have hall : ∀ c ∈ w ++ post.takeWhile noSpace, noSpace c = true := by
      intro c hm
      rcases List.mem_append.1 hm with hm | hm
      · have := hc c hm
        simp [noSpace, this]
      · exact List.all_eq_true.1 (List.all_takeWhile (p := noSpace)) c hm
    refine h pre (w ++ post.takeWhile noSpace) (post.dropWhile noSpace) ⟨⟨plus key, by simp, ?_⟩, ⟨by simp [hw], hall⟩, fun c r e => ?_⟩
    · rw [ht]
      have := List.takeWhile_append_dropWhile (p := noSpace) (l := post)
      calc pre ++ plus key ++ w ++ post = pre ++ plus key ++ w ++ (post.takeWhile noSpace ++ post.dropWhile noSpace) := by rw [this]
        _ = _ := by simp
    · have := List.head?_dropWhile_not noSpace post
      rw [e] at this
      simpa using this

/-! ## From attributes -/

section
variable [Field K] [LinearOrder K]

omit [Field K] [LinearOrder K] in
theorem find_last_earth {n : String} {f : String → Option (Attr K)} {xs ys : List (Attr K)} {a : Attr K}
    (hy : ∀ b ∈ ys, b.name ≠ n ∧ ¬ Clash b.name n) : (xs ++ a :: ys).foldl upd f n = upd (xs.foldl upd f) a n := by
  rw [List.foldl_append, List.foldl_cons]
  generalize upd (xs.foldl upd f) a = g
  induction ys generalizing g with
  | nil => rfl
  | cons b ys ih =>
    rw [List.foldl_cons, ih fun c hc => hy c (List.mem_cons_of_mem _ hc)]
    obtain ⟨h1, h2⟩ := hy b (by simp)
    unfold upd
    rw [if_neg h1, if_neg h2]

omit [LinearOrder K] in
/-- **C101.** A projection from attributes is of the class that `grid_mapping_name` names, latitude-longitude without one; the last
attribute of a name counts; of a radius and axes of the earth what comes later counts; without any the radius is
6371000 m.  Only an unknown name or a second one that differs makes it fail. -/
theorem C101_create (L : Lib K) (as : List (Attr K)) :
    match create L as with
    | .ok P =>
      (match find "grid_mapping_name" as with | none => P.kind = .latLong | some a => a.str L = P.kind.name.toList) ∧
      Tidy L P.kind.name.toList P.params ∧
      (∀ n, n ∉ earthNames → find n P.params = lastOf as n) ∧
      (∀ xs a ys, as = xs ++ a :: ys → (∀ b ∈ ys, b.name ≠ a.name ∧ ¬ Clash b.name a.name) → find a.name P.params = some a) ∧
      (∀ xs a ys n, as = xs ++ a :: ys → Clash a.name n → (∀ b ∈ ys, b.name ≠ n) → find n P.params = none) ∧
      ((∀ a ∈ as, a.name ∉ earthNames) → HasFigure P.params (.sphere 6371000))
    | .throws => (∃ a ∈ as, a.name = "grid_mapping_name" ∧ ∀ k : Kind, a.str L ≠ k.name.toList) ∨
        ∃ a ∈ as, ∃ b ∈ as, a.name = "grid_mapping_name" ∧ b.name = "grid_mapping_name" ∧ a.str L ≠ b.str L
    | .ub => False := by
  -- the class
  have main : ∀ k : Kind, (match find "grid_mapping_name" as with | none => k = .latLong | some a => a.str L = k.name.toList) →
      match (addParameters L k.name.toList as (fresh k : Projection K).params >>= fun ps => .ok (⟨k, ps⟩ : Projection K)) with
      | .ok P =>
        (match find "grid_mapping_name" as with | none => P.kind = .latLong | some a => a.str L = P.kind.name.toList) ∧
        Tidy L P.kind.name.toList P.params ∧
        (∀ n, n ∉ earthNames → find n P.params = lastOf as n) ∧
        (∀ xs a ys, as = xs ++ a :: ys → (∀ b ∈ ys, b.name ≠ a.name ∧ ¬ Clash b.name a.name) → find a.name P.params = some a) ∧
        (∀ xs a ys n, as = xs ++ a :: ys → Clash a.name n → (∀ b ∈ ys, b.name ≠ n) → find n P.params = none) ∧
        ((∀ a ∈ as, a.name ∉ earthNames) → HasFigure P.params (.sphere 6371000))
      | .throws => (∃ a ∈ as, a.name = "grid_mapping_name" ∧ ∀ k : Kind, a.str L ≠ k.name.toList) ∨
          ∃ a ∈ as, ∃ b ∈ as, a.name = "grid_mapping_name" ∧ b.name = "grid_mapping_name" ∧ a.str L ≠ b.str L
      | .ub => False := by
    intro k hk
    have hs := addParameters_spec (L := L) (name := k.name.toList) (as := as) (tidy_fresh L k k.name.toList)
    cases hr : addParameters L k.name.toList as (fresh k : Projection K).params with
    | ub => rw [hr] at hs; exact hs
    | throws =>
      rw [hr] at hs
      rw [Res.throws_bind]
      obtain ⟨a, ha, hn, hne⟩ := hs
      refine .inr ?_
      cases hf : find "grid_mapping_name" as with
      | none => exact absurd hn (find_none.1 hf a ha)
      | some b =>
        rw [hf] at hk
        obtain ⟨hb, hbn⟩ := find_some hf
        exact ⟨a, ha, b, hb, hn, hbn, by rw [hk]; exact hne⟩
    | ok ps =>
      rw [hr] at hs
      rw [Res.ok_bind]
      obtain ⟨ht, hf, -⟩ := hs
      refine ⟨hk, ht, fun n hn => ?_, fun xs a ys e hy => ?_, fun xs a ys n e hc hy => ?_, fun hno => ?_⟩
      · have := congrFun hf n
        show find n ps = _
        rw [this, foldl_other hn]
        have : find n (fresh k : Projection K).params = none := by
          rw [find_none]
          intro a ha
          simp only [fresh, List.mem_cons, List.not_mem_nil, or_false] at ha
          subst ha
          intro e'
          exact hn (e' ▸ (by simp [num, earthNames] : (num "earth_radius" (6371000 : K)).name ∈ earthNames))
        rw [this]
        simp
      · have := congrFun hf a.name
        show find a.name ps = _
        rw [this, e, find_last_earth hy]
        unfold upd
        rw [if_pos rfl]
      · have := congrFun hf n
        show find n ps = _
        rw [this, e]
        have hne : a.name ≠ n := by
          rintro h
          rw [h] at hc
          rcases hc with ⟨h1, h2⟩ | ⟨h1, h2⟩ <;> rw [h1] at h2 <;> revert h2 <;> decide
        -- once gone, it stays away
        rw [List.foldl_append, List.foldl_cons]
        have hg : upd (xs.foldl upd fun n => find n (fresh k : Projection K).params) a n = none := by
          unfold upd; rw [if_neg hne, if_pos hc]
        clear this e
        generalize upd (xs.foldl upd fun n => find n (fresh k : Projection K).params) a = g at hg
        induction ys generalizing g with
        | nil => exact hg
        | cons b ys ih =>
          rw [List.foldl_cons]
          refine ih (fun c hc => hy c (List.mem_cons_of_mem _ hc)) _ ?_
          unfold upd
          rw [if_neg (hy b (by simp))]
          split
          · rfl
          · exact hg
      · refine has_of (k := k) (l := []) (fun n hn => ?_) (.inr (.inr (.inr ⟨rfl, rfl⟩)))
        have := congrFun hf n
        show find n ps = _
        rw [this, foldl_earth hn, List.filter_eq_nil_iff.2 fun a ha => by simpa using hno a ha]
  unfold create
  cases hf : find "grid_mapping_name" as with
  | none =>
    have := main .latLong (by rw [hf])
    simp only [hf] at this
    exact this
  | some a =>
    dsimp only
    cases hk : kindOfName (a.str L) with
    | some k =>
      have := main k (by rw [hf]; exact kindOfName_eq hk)
      simp only [hf] at this
      exact this
    | none =>
      rw [Res.throws_bind]
      obtain ⟨ha, hn⟩ := find_some hf
      refine .inl ⟨a, ha, hn, fun k e => ?_⟩
      rw [e, kindOfName_name] at hk
      cases hk

/-! ## The class of a text -/

/-- Classes that need nothing but the word behind `+proj=`. -/
def simple : List (String × Kind) :=
  [("aea", .albers), ("aeqd", .azimuthalEquidistant), ("geos", .geostationary), ("laea", .lambertAzimuthal), ("lcc", .lambertConformal),
   ("cea", .lambertCylindrical), ("latlong", .latLong), ("longlat", .latLong), ("merc", .mercator), ("omerc", .obliqueMercator),
   ("ortho", .orthographic), ("sinu", .sinusoidal), ("tmerc", .transverseMercator), ("utm", .transverseMercator),
   ("gstmerc", .transverseMercator), ("etmerc", .transverseMercator), ("nsper", .verticalPerspective)]

/-- The origin is at a pole, up to 1/10000 of a degree. -/
def AtPole (L : Lib K) (s : Text) : Prop := ∃ v, number L ["lat_0"] s = some v ∧ |(|v| - 90)| < 1 / 10000

/-- Rotation of a latitude-longitude system. -/
def RotatedLatLong (s : Text) : Prop := word "o_proj" s = some "latlong".toList ∨ word "o_proj" s = some "longlat".toList

/-- The class of a text with that word behind `+proj=`. -/
inductive ClassOf (L : Lib K) (s w : Text) : Kind → Prop
  | simple {e : String × Kind} (he : e ∈ simple) (hw : w = e.1.toList) : ClassOf L s w e.2
  | polar (hw : w = "stere".toList) (h : AtPole L s) : ClassOf L s w .polarStereographic
  | stereographic (hw : w = "stere".toList) (h : ¬ AtPole L s) : ClassOf L s w .stereographic
  | rotated (hw : w = "ob_tran".toList) (h : RotatedLatLong s) : ClassOf L s w .rotated
  | unknown (h1 : ∀ e ∈ Proj.simple, w ≠ e.1.toList) (h2 : w ≠ "stere".toList) (h3 : w = "ob_tran".toList → ¬ RotatedLatLong s) :
      ClassOf L s w .unknown

theorem firstOf_some {L : Lib K} {s : Text} : ∀ {ks : List Kind} {k : Kind}, firstOf L s ks = .ok (some k) →
    accepts L s k = .ok true ∧ ∀ j ∈ ks.takeWhile (· ≠ k), accepts L s j = .ok false
  | [], k, h => by cases h
  | j :: ks, k, h => by
    obtain ⟨b, hb, h⟩ := Res.bind_eq_ok.1 h
    cases b with
    | true =>
      rw [if_pos rfl] at h
      cases h
      refine ⟨hb, ?_⟩
      rw [List.takeWhile_cons_of_neg (by simp)]
      simp
    | false =>
      rw [if_neg (by simp)] at h
      obtain ⟨h1, h2⟩ := firstOf_some h
      refine ⟨h1, fun i hi => ?_⟩
      by_cases hjk : j = k
      · subst hjk
        rw [h1] at hb; cases hb
      · rw [List.takeWhile_cons_of_pos (by simpa using hjk)] at hi
        rcases List.mem_cons.1 hi with rfl | hi
        · exact hb
        · exact h2 i hi

theorem matches_true {s : Text} {n : String} (h : matchesName s n = true) : word "proj" s = some n.toList := by
  simpa [matchesName] using h

theorem accepts_simple {L : Lib K} {s : Text} {k : Kind} {b : Bool} (h : accepts L s k = .ok b) (h1 : k ≠ .polarStereographic)
    (h2 : k ≠ .rotated) (h3 : k ≠ .stereographic) (h4 : k ≠ .unknown) :
    b = (simple.any fun e => e.2 = k && matchesName s e.1) := by
  cases k <;> first | exact absurd rfl h1 | exact absurd rfl h2 | exact absurd rfl h3 | exact absurd rfl h4 | skip
  all_goals
    cases h
    simp [simple, Bool.or_assoc]

theorem polar_accepts {L : Lib K} {s : Text} {b : Bool} (h : accepts L s .polarStereographic = .ok b) (hw : word "proj" s = some "stere".toList) :
    b = true ↔ AtPole L s := by
  have h : acceptsPolar L s = .ok b := h
  unfold acceptsPolar at h
  rw [if_pos (by simp [matchesName, hw])] at h
  cases hl : word "lat_0" s with
  | none =>
    rw [hl] at h
    cases h
    refine ⟨(fun h => by cases h), fun ⟨v, hv, _⟩ => ?_⟩
    rw [number_of_no_word hl] at hv; cases hv
  | some w =>
    rw [hl] at h
    obtain ⟨v, hv, e⟩ := Res.bind_eq_ok.1 h
    cases e
    have hn : number L ["lat_0"] s = some v := by rw [number_of_word hl, hv]; rfl
    rw [decide_eq_true_iff]
    constructor
    · exact fun h => ⟨v, hn, h⟩
    · rintro ⟨v', hv', h⟩
      rw [hn] at hv'
      cases hv'
      exact h

/-- **C101.** A text gives a projection of the class that its `+proj=` says; a text without one gives none. -/
theorem C101_which {L : Lib K} {fuel : ℕ} {s : Text} :
    (∀ P, createByProj4 L fuel s = .ok P → ∃ w, word "proj" s = some w ∧ ClassOf L s w P.kind) ∧
    (word "proj" s = none → createByProj4 L fuel s = .throws) := by
  constructor
  · intro P h
    obtain ⟨hf, -⟩ := createByProj4_ok h
    obtain ⟨hacc, hrej⟩ := firstOf_some hf
    generalize P.kind = k at *
    -- those that need nothing else
    have hsimple : ∀ {j : Kind} {b : Bool}, j ≠ .polarStereographic → j ≠ .rotated → j ≠ .stereographic → j ≠ .unknown →
        accepts L s j = .ok b → b = (simple.any fun e => e.2 = j && matchesName s e.1) := fun a1 a2 a3 a4 a5 => accepts_simple a5 a1 a2 a3 a4
    by_cases hk : k ≠ .polarStereographic ∧ k ≠ .rotated ∧ k ≠ .stereographic ∧ k ≠ .unknown
    · have := hsimple hk.1 hk.2.1 hk.2.2.1 hk.2.2.2 hacc
      obtain ⟨e, he, hm⟩ := List.any_eq_true.1 this.symm
      simp only [Bool.and_eq_true, decide_eq_true_eq] at hm
      obtain ⟨rfl, hm⟩ := hm
      exact ⟨_, matches_true hm, .simple he rfl⟩
    · have hcases : k = .polarStereographic ∨ k = .rotated ∨ k = .stereographic ∨ k = .unknown := by
        by_contra hc
        push Not at hc
        exact hk hc
      rcases hcases with rfl | rfl | rfl | rfl
      · have hm : matchesName s "stere" = true := by
          have hacc : acceptsPolar L s = .ok true := hacc
          unfold acceptsPolar at hacc
          split at hacc
          · assumption
          · cases hacc
        have hw := matches_true hm
        exact ⟨_, hw, .polar rfl ((polar_accepts hacc hw).1 rfl)⟩
      · have hacc : Res.ok (acceptsRotated s) = .ok true := hacc
        have hacc := Res.ok.inj hacc
        simp only [acceptsRotated, Bool.and_eq_true, Bool.or_eq_true, decide_eq_true_eq] at hacc
        exact ⟨_, matches_true hacc.1, .rotated rfl hacc.2⟩
      · have hacc : Res.ok (matchesName s "stere") = .ok true := hacc
        have hw := matches_true (Res.ok.inj hacc)
        refine ⟨_, hw, .stereographic rfl fun hp => ?_⟩
        have := hrej .polarStereographic (by decide)
        have := (polar_accepts this hw).2 hp
        cases this
      · have hacc : Res.ok (word "proj" s).isSome = .ok true := hacc
        obtain ⟨w, hw⟩ := Option.isSome_iff_exists.1 (Res.ok.inj hacc)
        refine ⟨w, hw, .unknown (fun e he hwe => ?_) (fun hwe => ?_) (fun hwe hr => ?_)⟩
        · have hj : e.2 ≠ .polarStereographic ∧ e.2 ≠ .rotated ∧ e.2 ≠ .stereographic ∧ e.2 ≠ .unknown ∧
              e.2 ∈ asked.takeWhile (· ≠ Kind.unknown) := by
            clear hwe; revert e; decide
          have := hsimple hj.1 hj.2.1 hj.2.2.1 hj.2.2.2.1 (hrej e.2 hj.2.2.2.2)
          have hany : (simple.any fun e' => e'.2 = e.2 && matchesName s e'.1) = true := by
            rw [List.any_eq_true]
            exact ⟨e, he, by simp [matchesName, hw, hwe]⟩
          rw [hany] at this
          cases this
        · have := hrej .stereographic (by decide)
          have : Res.ok (matchesName s "stere") = .ok false := this
          have := Res.ok.inj this
          simp [matchesName, hw, hwe] at this
        · have := hrej .rotated (by decide)
          have : Res.ok (acceptsRotated s) = .ok false := this
          have := Res.ok.inj this
          rw [acceptsRotated, matchesName, hw, hwe] at this
          rcases hr with hr | hr <;> rw [hr] at this <;> simp at this
  · intro hw
    have hm : ∀ n, matchesName s n = false := by intro n; simp [matchesName, hw]
    have : firstOf L s asked = .ok none := by
      simp [firstOf, asked, accepts, acceptsPolar, acceptsRotated, hm, hw]
    unfold createByProj4
    rw [this]
    rfl

/-- **C101.** There is one class for a text. -/
theorem C101_one_class {L : Lib K} {s w : Text} {j k : Kind} (hj : ClassOf L s w j) (hk : ClassOf L s w k) : j = k := by
  have ht : ∀ e ∈ simple, e.1.toList ≠ "stere".toList ∧ e.1.toList ≠ "ob_tran".toList := by decide +kernel
  have hu : ∀ e ∈ simple, ∀ e' ∈ simple, e.1.toList = e'.1.toList → e.2 = e'.2 := by decide +kernel
  have hs : "stere".toList ≠ "ob_tran".toList := by decide
  cases hj with
  | simple he hw =>
    cases hk with
    | simple he' hw' => exact hu _ he _ he' (hw.symm.trans hw')
    | polar hw' _ => exact absurd (hw.symm.trans hw') (ht _ he).1
    | stereographic hw' _ => exact absurd (hw.symm.trans hw') (ht _ he).1
    | rotated hw' _ => exact absurd (hw.symm.trans hw') (ht _ he).2
    | unknown h1 _ _ => exact absurd hw (h1 _ he)
  | polar hw h =>
    cases hk with
    | simple he' hw' => exact absurd (hw'.symm.trans hw) (ht _ he').1
    | polar _ _ => rfl
    | stereographic _ h' => exact absurd h h'
    | rotated hw' _ => exact absurd (hw.symm.trans hw') hs
    | unknown _ h2 _ => exact absurd hw h2
  | stereographic hw h =>
    cases hk with
    | simple he' hw' => exact absurd (hw'.symm.trans hw) (ht _ he').1
    | polar _ h' => exact absurd h' h
    | stereographic _ _ => rfl
    | rotated hw' _ => exact absurd (hw.symm.trans hw') hs
    | unknown _ h2 _ => exact absurd hw h2
  | rotated hw h =>
    cases hk with
    | simple he' hw' => exact absurd (hw'.symm.trans hw) (ht _ he').2
    | polar hw' _ => exact absurd (hw'.symm.trans hw) hs
    | stereographic hw' _ => exact absurd (hw'.symm.trans hw) hs
    | rotated _ _ => rfl
    | unknown _ _ h3 => exact absurd h (h3 hw)
  | unknown h1 h2 h3 =>
    cases hk with
    | simple he' hw' => exact absurd hw' (h1 _ he')
    | polar hw' _ => exact absurd hw' h2
    | stereographic hw' _ => exact absurd hw' h2
    | rotated hw' h' => exact absurd h' (h3 hw')
    | unknown _ _ _ => rfl

/-! ## Numbers of a text -/

/-- **C101.** The attributes of a projection from a text have the numbers of the text; the figure of the earth is that of the text.
For those of the rotated pole and of UTM see below. -/
theorem C101_read {L : Lib K} (hL : StrtodAgrees L) {fuel : ℕ} {s : Text} {P : Projection K} (h : createByProj4 L fuel s = .ok P)
    (hr : P.kind ≠ .rotated) (hu : word "proj" s ≠ some "utm".toList) :
    (∀ r ∈ rows P.kind, ReadAs L s P.params r) ∧
    (∀ attr, scaleOf P.kind = some attr → (P.kind = .stereographic ∨ P.kind = .polarStereographic → word "lat_ts" s = none) →
      ReadAs L s P.params ⟨"k", attr, false⟩) ∧
    (P.kind = .albers ∨ P.kind = .lambertConformal → find "standard_parallel" P.params =
      (number L ["lat_1"] s).map fun l1 => ⟨"standard_parallel", .nums (l1 :: (number L ["lat_2"] s).toList)⟩) ∧
    find "false_easting" P.params = (number L ["x_0"] s).map (num "false_easting") ∧
    find "false_northing" P.params = (number L ["y_0"] s).map (num "false_northing") ∧
    (∀ f, EarthOf L s f → HasFigure P.params f) := by
  obtain ⟨-, own, e, hft⟩ := createByProj4_ok h
  have hum : matchesName s "utm" = false := by simpa [matchesName] using hu
  have hp : Plain s P.kind := ⟨hr, fun _ => hum⟩
  exact ⟨read_rows hL hft hp, fun attr ha hts => read_scale hL hft hp ha hts, read_parallels hft, (read_false hft hum).1, (read_false hft hum).2,
    fun f hf => read_figure hft hf⟩

/-- **C101.** Every text that gives a projection has a figure of the earth, unless it has both an axis and a known name. -/
theorem C101_figure {L : Lib K} {fuel : ℕ} {s : Text} {P : Projection K} (h : createByProj4 L fuel s = .ok P)
    (hn : search noSpace [plus "a", plus "R"] s = none ∨ ∀ f : Figure K, ¬ Names s f) :
    ∃ f, EarthOf L s f ∧ HasFigure P.params f := by
  obtain ⟨-, own, e, hft⟩ := createByProj4_ok h
  obtain ⟨f, hf⟩ := earthOf_exists hft.earth hn
  exact ⟨f, hf, read_figure hft hf⟩

omit [LinearOrder K] in
theorem utm_scale (L : Lib K) (s : Text) : lastOf (utmOwn L s) "scale_factor_at_central_meridian" =
    some (num "scale_factor_at_central_meridian" (9996 / 10000)) := by
  unfold utmOwn
  generalize (9996 / 10000 : K) = x
  generalize (500000 : K) = y
  generalize (10000000 : K) = z
  simp only [lastOf_append, lastOf_cons, lastOf_nil, lastOf_opt, lastOf_ite, num]
  simp

omit [LinearOrder K] in
theorem utm_latitude (L : Lib K) (s : Text) : lastOf (utmOwn L s) "latitude_of_projection_origin" =
    some (num "latitude_of_projection_origin" 0) := by
  unfold utmOwn
  generalize (9996 / 10000 : K) = x
  generalize (500000 : K) = y
  generalize (10000000 : K) = z
  simp only [lastOf_append, lastOf_cons, lastOf_nil, lastOf_opt, lastOf_ite, num]
  simp

omit [LinearOrder K] in
theorem utm_meridian {L : Lib K} {s w : Text} (hl : search isDigit [plus "lon_0"] s = none) (hz : search isDigit [plus "zone"] s = some w) :
    lastOf (utmOwn L s) "longitude_of_central_meridian" = some (num "longitude_of_central_meridian" ((zoneMeridian (digitsValue w) : ℤ) : K)) := by
  unfold utmOwn
  rw [hl, hz]
  generalize (9996 / 10000 : K) = x
  generalize (500000 : K) = y
  generalize (10000000 : K) = z
  simp only [lastOf_append, lastOf_cons, lastOf_nil, lastOf_opt, lastOf_ite, num]
  simp [num]

omit [LinearOrder K] in
theorem utm_easting (L : Lib K) (s : Text) : lastOf (utmOwn L s) "false_easting" = some (num "false_easting" 500000) := by
  unfold utmOwn
  generalize (9996 / 10000 : K) = x
  generalize (500000 : K) = y
  generalize (10000000 : K) = z
  simp only [lastOf_append, lastOf_cons, lastOf_nil, lastOf_opt, lastOf_ite, num]
  simp

omit [LinearOrder K] in
theorem utm_northing (L : Lib K) (s : Text) :
    lastOf (utmOwn L s) "false_northing" = (if occurs "+south".toList s then some 10000000 else none).map (num "false_northing") := by
  unfold utmOwn
  generalize (9996 / 10000 : K) = x
  generalize (500000 : K) = y
  generalize (10000000 : K) = z
  simp only [lastOf_append, lastOf_cons, lastOf_nil, lastOf_opt, lastOf_ite, num]
  by_cases ho : occurs "+south".toList s = true
  · rw [if_pos ho, if_pos ho]; simp [num]
  · rw [if_neg ho, if_neg ho]; simp

/-- **C101.** UTM is a transverse Mercator projection of scale 0.9996 and false easting 500000; its meridian is that of the zone, and on
the south the false northing is 10000000. -/
theorem C101_utm {L : Lib K} {fuel : ℕ} {s : Text} {P : Projection K} (h : createByProj4 L fuel s = .ok P)
    (hu : word "proj" s = some "utm".toList) :
    P.kind = .transverseMercator ∧
    find "scale_factor_at_central_meridian" P.params = some (num "scale_factor_at_central_meridian" (9996 / 10000)) ∧
    find "latitude_of_projection_origin" P.params = some (num "latitude_of_projection_origin" 0) ∧
    (∀ w, search isDigit [plus "lon_0"] s = none → search isDigit [plus "zone"] s = some w →
      find "longitude_of_central_meridian" P.params =
        some (num "longitude_of_central_meridian" ((6 * max 1 (min 60 (digitsValue w : ℤ)) - 183 : ℤ) : K))) ∧
    find "false_easting" P.params = some (num "false_easting" ((number L ["x_0"] s).getD 500000)) ∧
    find "false_northing" P.params = ((number L ["y_0"] s).or (if occurs "+south".toList s then some 10000000 else none)).map (num "false_northing") := by
  obtain ⟨w, hw, hc⟩ := C101_which.1 P h
  obtain ⟨-, own, e, hft⟩ := createByProj4_ok h
  have hwu : w = "utm".toList := by rw [hu] at hw; exact (Option.some.inj hw).symm
  have hk : P.kind = .transverseMercator :=
    C101_one_class hc (.simple (e := ("utm", .transverseMercator)) (by decide) hwu)
  have hown : own = utmOwn L s := by
    have ho := hft.isOwn
    rw [hk] at ho
    cases ho with
    | plain hp =>
      have := hp.2 rfl
      simp [matchesName, hu] at this
    | utm _ => rfl
  subst hown
  obtain ⟨l1, l2⟩ := lastOf_earth hft.earth
  refine ⟨hk, ?_, ?_, fun z hl hz => ?_, ?_, ?_⟩
  · rw [hft.value (by decide) (by decide) (by decide), utm_scale]
  · rw [hft.value (by decide) (by decide) (by decide), utm_latitude]
  · rw [hft.value (n := "longitude_of_central_meridian") (by decide) (by decide) (by decide), utm_meridian hl hz]
    rfl
  · rw [hft.side (by decide) (by decide) (by decide), l1, utm_easting]
    cases number L ["x_0"] s <;> rfl
  · rw [hft.side (by decide) (by decide) (by decide), l2, utm_northing]
    cases number L ["y_0"] s <;> rfl

section
variable [IsStrictOrderedRing K]

omit [IsStrictOrderedRing K] in
theorem loopUp_some : ∀ {f : ℕ} {x y : K}, Longitude.loopUp (· + 360) f x = some y →
    (∃ n : ℤ, y = x + 360 * n) ∧ -180 ≤ y
  | 0, x, y, h => by
    rw [Longitude.loopUp_zero] at h
    split at h
    · cases h
    · cases h
      exact ⟨⟨0, by simp⟩, not_lt.1 (by assumption)⟩
  | f + 1, x, y, h => by
    rw [Longitude.loopUp_succ] at h
    split at h
    · obtain ⟨⟨n, hn⟩, h2⟩ := loopUp_some h
      exact ⟨⟨n + 1, by rw [hn]; push_cast; ring⟩, h2⟩
    · cases h
      exact ⟨⟨0, by simp⟩, not_lt.1 (by assumption)⟩

theorem loopDown_some : ∀ {f : ℕ} {x y : K}, Longitude.loopDown (· - 360) f x = some y → -180 ≤ x →
    (∃ n : ℤ, y = x + 360 * n) ∧ -180 ≤ y ∧ y ≤ 180
  | 0, x, y, h, hx => by
    rw [Longitude.loopDown_zero] at h
    split at h
    · cases h
    · cases h
      exact ⟨⟨0, by simp⟩, hx, not_lt.1 (by assumption)⟩
  | f + 1, x, y, h, hx => by
    rw [Longitude.loopDown_succ] at h
    split at h
    · rename_i hgt
      obtain ⟨⟨n, hn⟩, h2⟩ := loopDown_some h (by linarith)
      exact ⟨⟨n - 1, by rw [hn]; push_cast; ring⟩, h2⟩
    · cases h
      exact ⟨⟨0, by simp⟩, hx, not_lt.1 (by assumption)⟩

theorem pole_some {f : ℕ} {x p : K} (h : pole f x = .ok p) : (∃ n : ℤ, p = 180 + x + 360 * n) ∧ -180 ≤ p ∧ p ≤ 180 := by
  unfold pole at h
  cases hn : Longitude.normalizeExact f (180 + x) with
  | none => rw [hn] at h; cases h
  | some y =>
    rw [hn] at h
    cases h
    unfold Longitude.normalizeExact Longitude.normalize at hn
    obtain ⟨z, hz, hy⟩ := Option.bind_eq_some_iff.1 hn
    obtain ⟨⟨n, e1⟩, h1⟩ := loopUp_some hz
    obtain ⟨⟨m, e2⟩, h2⟩ := loopDown_some hy h1
    exact ⟨⟨n + m, by rw [e2, e1]; push_cast; ring⟩, h2⟩

/-- **C101.** A rotated pole: the latitude of the pole is `+o_lat_p=`, its longitude is opposite of `+lon_0=`, between -180 and 180; a
shift in the grid is `+o_lon_p=`, as far as that is above 1/10000. -/
theorem C101_rotated {L : Lib K} {fuel : ℕ} {s : Text} {P : Projection K} (h : createByProj4 L fuel s = .ok P)
    (hk : P.kind = .rotated) :
    (∃ p, find "grid_north_pole_longitude" P.params = some (num "grid_north_pole_longitude" p) ∧
      (∃ n : ℤ, p = (number L ["lon_0"] s).getD 0 + 180 + 360 * n) ∧ -180 ≤ p ∧ p ≤ 180) ∧
    find "grid_north_pole_latitude" P.params = some (num "grid_north_pole_latitude" ((number L ["o_lat_p"] s).getD 90)) ∧
    find "north_pole_grid_longitude" P.params = (if (number L ["o_lon_p"] s).getD 0 > 1 / 10000
      then some (num "north_pole_grid_longitude" ((number L ["o_lon_p"] s).getD 0)) else none) := by
  obtain ⟨-, own, e, hft⟩ := createByProj4_ok h
  have ho := hft.isOwn
  rw [hk] at ho
  have hown : ∃ p, pole fuel ((number L ["lon_0"] s).getD 0) = .ok p ∧ own = rotatedOwn L s p := by
    cases ho with
    | plain hp => exact absurd rfl hp.1
    | rotated hp => exact ⟨_, hp, rfl⟩
  obtain ⟨p, hp, rfl⟩ := hown
  obtain ⟨⟨n, hn⟩, h1, h2⟩ := pole_some hp
  refine ⟨⟨p, ?_, ⟨n, by rw [hn]; ring⟩, h1, h2⟩, ?_, ?_⟩
  · rw [hft.value (by decide) (by decide) (by decide), rotatedOwn]
    simp only [lastOf_append, lastOf_cons, lastOf_nil, lastOf_ite, num]
    simp
  · rw [hft.value (by decide) (by decide) (by decide), rotatedOwn]
    simp only [lastOf_append, lastOf_cons, lastOf_nil, lastOf_ite, num]
    simp
  · rw [hft.value (by decide) (by decide) (by decide), rotatedOwn]
    simp only [lastOf_append, lastOf_cons, lastOf_nil, lastOf_ite, num]
    simp

/-- **C101.** The longitude of a rotated pole gets normalised for every `+lon_0=`. -/
theorem C101_rotated_ends [Archimedean K] (x : K) : ∃ (p : K) (n : ℕ), ∀ fuel ≥ n, pole fuel x = .ok p := by
  obtain ⟨y, -, n, h, -⟩ := Longitude.C60_normalised (180 + x)
  refine ⟨y, n, fun f hf => ?_⟩
  unfold pole
  rw [h f hf]

end

/-! ## To a text -/

/-- **C101.** The text of a projection says `+proj=` of its class, the attributes of its class, and the figure of the earth.  A
standard parallel, of the conics, comes with six digits; a second one only if there is a third. -/
theorem C101_write {L : Lib K} (hL : Sane L) {P : Projection K} (hw : Words P.params) {t : Text} (hk : P.kind ≠ .unknown)
    (h : proj4String L P = .ok t) :
    word "proj" t = some P.kind.word.toList ∧
    (∀ w ∈ writes P.kind ++ writesAll, word w.1 t = w.2.findSome? (shownOf L P.params)) ∧
    (P.kind = .albers ∨ P.kind = .lambertConformal →
      match (find "standard_parallel" P.params).map (fun a => a.val.doubles L) with
      | none => word "lat_1" t = some "0".toList ∧ word "lat_2" t = some "0".toList
      | some [] => False
      | some [x] => word "lat_1" t = some (L.print6 x) ∧ word "lat_2" t = some (L.print6 x)
      | some [x, _] => word "lat_1" t = some (L.print6 x) ∧ word "lat_2" t = some (L.print6 x)
      | some (x :: y :: _ :: _) => word "lat_1" t = some (L.print6 x) ∧ word "lat_2" t = some (L.print6 y)) ∧
    (P.kind = .rotated → ∀ p, find "grid_north_pole_longitude" P.params = some (num "grid_north_pole_longitude" p) →
      word "lon_0" t = some (L.print6 (p - 180))) ∧
    (∀ f, HasFigure P.params f →
      match f with
      | .sphere r => Exact L r → EarthOf L t (.sphere r)
      | .ellipse a b => Exact L a → Exact L b → EarthOf L t (.ellipse a b)
      | .flattened a g => 0 < g → Exact L a → word "rf" t = some (L.print g) ∧ EarthOf L t (.sphere a)) :=
  ⟨write_proj hL hw hk h, write_rows hL hw hk h, fun h' => write_parallels hL hw h' h, fun h' _ hp => write_pole hL hw h' h hp,
    fun f hf => by have := write_figure hL hw hk h hf; cases f <;> exact this⟩

omit [LinearOrder K] in
/-- Only a conic with no numbers in its standard parallels has no text. -/
theorem projectionPart_ok (L : Lib K) {ps : List (Attr K)} {k : Kind} (hk : k ≠ .unknown)
    (hp : k = .albers ∨ k = .lambertConformal → ∀ a, find "standard_parallel" ps = some a → a.val.doubles L ≠ []) :
    ∃ t, projectionPart L ps k = .ok t := by
  have par : k = .albers ∨ k = .lambertConformal → ∃ t, parallelsPart L ps = .ok t := by
    intro h
    unfold parallelsPart
    cases hf : find "standard_parallel" ps with
    | none => exact ⟨_, rfl⟩
    | some a =>
      dsimp only
      cases hd : a.val.doubles L with
      | nil => exact absurd hd (hp h a hf)
      | cons x xs => exact ⟨_, rfl⟩
  cases k with
  | unknown => exact absurd rfl hk
  | albers => obtain ⟨t, ht⟩ := par (.inl rfl); exact ⟨_, by rw [projectionPart, ht]; rfl⟩
  | lambertConformal => obtain ⟨t, ht⟩ := par (.inr rfl); exact ⟨_, by rw [projectionPart, ht]; rfl⟩
  | _ => exact ⟨_, rfl⟩

/-- A number of a text is again in the other text; where there was none, there is none or a zero. -/
structure Kept (L : Lib K) (s t : Text) (r : Row) : Prop where
  given : ∀ v, number L [r.key] s = some v → Exact L v → number L [r.key] t = some v
  absent : word r.key s = none → Exact L 0 → number L [r.key] t = if r.zero then some 0 else none

omit [LinearOrder K] in
theorem kept_of {L : Lib K} {s t : Text} {ps : List (Attr K)} {r : Row} (h : ReadAs L s ps r) (hw : word r.key t = shownOf L ps r.attr) :
    Kept L s t r := by
  refine ⟨fun v hv he => ?_, fun hn h0 => ?_⟩
  · refine number_exact (keys := [r.key]) ?_ he
    show word r.key t = _
    rw [hw, shownOf_num (h.given v hv)]
  · have := h.absent hn
    split at this
    · rename_i hz
      rw [if_pos hz]
      refine number_exact (keys := [r.key]) ?_ h0
      show word r.key t = _
      rw [hw, shownOf_num this]
    · rename_i hz
      rw [if_neg hz]
      refine number_of_no_word ?_
      rw [hw, shownOf_none this]

theorem rows_written : ∀ k, ∀ r ∈ rows k, (r.key, [r.attr]) ∈ writes k ∨
    ((k = .stereographic ∨ k = .polarStereographic) ∧ r.key = "lon_0" ∧
      r.attr = (if k = .stereographic then "longitude_of_projection_origin" else "straight_vertical_longitude_from_pole")) := by
  intro k
  cases k <;> decide +kernel

theorem scale_written : ∀ k attr, scaleOf k = some attr → ("k", [attr]) ∈ writes k ∨ ("k_0", [attr]) ∈ writes k := by
  intro k
  cases k <;> simp [scaleOf, writes]

/-- **C101, partial.** A text, the projection of it, and the text of that: the numbers of the class, false easting and northing, the scale
factor, the first standard parallel and the figure of the earth are the same.  Missing, with proofs below that they are lost: the second
standard parallel, a scale factor with the key k_0, the sweep axis, inverse flattening, UTM. -/
theorem C101_text_kept_partial {L : Lib K} (hL : Sane L) (hd : StrtodAgrees L) {fuel : ℕ} {s : Text} {P : Projection K}
    (h : createByProj4 L fuel s = .ok P) (hr : P.kind ≠ .rotated) (hu : word "proj" s ≠ some "utm".toList) (hk : P.kind ≠ .unknown) :
    ∃ t, proj4String L P = .ok t ∧
      -- the numbers of the class
      (∀ r ∈ rows P.kind, Kept L s t r) ∧
      -- false easting and northing
      Kept L s t ⟨"x_0", "false_easting", false⟩ ∧ Kept L s t ⟨"y_0", "false_northing", false⟩ ∧
      -- the scale factor, under either key
      (∀ attr v, scaleOf P.kind = some attr → (P.kind = .stereographic ∨ P.kind = .polarStereographic → word "lat_ts" s = none) →
        number L ["k"] s = some v → Exact L v → number L ["k", "k_0"] t = some v) ∧
      -- the first standard parallel
      (∀ v, P.kind = .albers ∨ P.kind = .lambertConformal → number L ["lat_1"] s = some v → L.string2type (L.print6 v) = .ok v →
        number L ["lat_1"] t = some v) ∧
      -- the earth
      (∀ r, EarthOf L s (.sphere r) → Exact L r → EarthOf L t (.sphere r)) ∧
      (∀ a b, EarthOf L s (.ellipse a b) → Exact L a → Exact L b → EarthOf L t (.ellipse a b)) := by
  obtain ⟨-, own, e, hft⟩ := createByProj4_ok h
  have hum : matchesName s "utm" = false := by simpa [matchesName] using hu
  have hp : Plain s P.kind := ⟨hr, fun _ => hum⟩
  have hw := hft.words hk
  have hpar := fun hc => read_parallels hft hc
  obtain ⟨u, hpart⟩ := projectionPart_ok L (ps := P.params) hk (by
    intro hc a ha
    rw [hpar hc] at ha
    obtain ⟨l, -, rfl⟩ := Option.map_eq_some_iff.1 ha
    simp [Val.doubles])
  have ht : ∃ t, proj4String L P = .ok t := by
    unfold proj4String
    split
    · rename_i e'; exact absurd e' hk
    · rw [hpart]; exact ⟨_, rfl⟩
  obtain ⟨t, ht⟩ := ht
  have hrows := read_rows hd hft hp
  have hwrite := write_rows hL hw hk ht
  have hfalse := read_false hft hum
  refine ⟨t, ht, fun r hrm => kept_of (hrows r hrm) ?_, kept_of (readAs_opt hfalse.1) ?_, kept_of (readAs_opt hfalse.2) ?_, ?_, ?_, ?_, ?_⟩
  · rcases rows_written _ r hrm with hm | ⟨hst, hkey, hattr⟩
    · have := hwrite _ (List.mem_append_left _ hm)
      rw [this]
      show List.findSome? (shownOf L P.params) [r.attr] = _
      simp [List.findSome?_cons]
      cases shownOf L P.params r.attr <;> rfl
    · have hm : ("lon_0", ["straight_vertical_longitude_from_pole", "longitude_of_projection_origin"]) ∈ writes P.kind := by
        rcases hst with hst | hst <;> rw [hst] <;> decide
      have := hwrite _ (List.mem_append_left _ hm)
      rw [hkey, this, hattr]
      show List.findSome? (shownOf L P.params) ["straight_vertical_longitude_from_pole", "longitude_of_projection_origin"] = _
      rcases hst with hst | hst
      · rw [hst, if_pos rfl]
        have hnone : find "straight_vertical_longitude_from_pole" P.params = none := by
          rw [hft.value (by decide) (by decide) (by decide), hft.plain hp, hst]
          dsimp only [ownOf]
          simp only [lastOf_append, lastOf_opt, lastOf_ite]
          simp
        rw [List.findSome?_cons, shownOf_none hnone]
        dsimp only
        rw [List.findSome?_cons]
        cases shownOf L P.params "longitude_of_projection_origin" <;> rfl
      · rw [hst, if_neg (by decide)]
        have hnone : find "longitude_of_projection_origin" P.params = none := by
          rw [hft.value (by decide) (by decide) (by decide), hft.plain hp, hst]
          dsimp only [ownOf]
          simp only [lastOf_append, lastOf_opt, lastOf_ite]
          simp
        rw [List.findSome?_cons]
        cases shownOf L P.params "straight_vertical_longitude_from_pole" with
        | some v => rfl
        | none =>
          dsimp only
          rw [List.findSome?_cons, shownOf_none hnone]
          rfl
  · have := hwrite ("x_0", ["false_easting"]) (List.mem_append_right _ (by decide))
    rw [this]
    show List.findSome? (shownOf L P.params) ["false_easting"] = _
    rw [List.findSome?_cons]
    cases shownOf L P.params "false_easting" <;> rfl
  · have := hwrite ("y_0", ["false_northing"]) (List.mem_append_right _ (by decide))
    rw [this]
    show List.findSome? (shownOf L P.params) ["false_northing"] = _
    rw [List.findSome?_cons]
    cases shownOf L P.params "false_northing" <;> rfl
  · intro attr v ha hts hv he
    have hread := read_scale hd hft hp ha hts
    have hs : shownOf L P.params attr = some (L.print v) := shownOf_num (hread.given v hv)
    refine number_exact ?_ he
    have hsays := own_says hL hw hk ht (keys := ["k", "k_0"]) (by
      simp only [List.forall_mem_cons]; exact ⟨key_of (by decide +kernel), key_of (by decide +kernel), by simp⟩) (by decide)
    rw [hsays]
    clear * - ha hs
    generalize P.kind = k at *
    cases k <;> simp only [scaleOf, Option.some.injEq, reduceCtorEq] at ha <;> subst ha <;>
      simp [ownItems, lookup_kv, lookup_append, lookup_item, lookup_noRot, hs]
  · intro v hc hv he
    have hfind := hpar hc
    rw [hv] at hfind
    have := write_parallels hL hw hc ht
    rw [hfind] at this
    have hword : word "lat_1" t = some (L.print6 v) := by
      simp only [Option.map_some, Val.doubles] at this
      cases hl2 : number L ["lat_2"] s with
      | none => rw [hl2] at this; exact this.1
      | some l2 => rw [hl2] at this; exact this.1
    rw [number_of_word hword, he]
    rfl
  · intro r hr he
    exact write_figure hL hw hk ht (read_figure hft hr) he
  · intro a b hab ha hb
    exact write_figure hL hw hk ht (read_figure hft hab) ha hb

/-- **C101.** The text of a projection of no known class is kept as it is. -/
theorem C101_unknown {L : Lib K} {fuel : ℕ} {s : Text} {P : Projection K} (h : createByProj4 L fuel s = .ok P) (hk : P.kind = .unknown) :
    proj4String L P = .ok s := by
  obtain ⟨-, own, e, hft⟩ := createByProj4_ok h
  have : find "proj4" P.params = some (txt "proj4" s) := by
    have := congrFun hft.found "proj4"
    rw [this, foldl_other (by decide), lastOf_cons, lastOf_append, lastOf_append, hk]
    simp [backOf, lastOf_cons, lastOf_nil, txt]
  unfold proj4String
  rw [hk]
  dsimp only
  rw [this]
  rfl

theorem class_stere {L : Lib K} {s w : Text} {k : Kind} (hc : ClassOf L s w k) (hk : k = .stereographic ∨ k = .polarStereographic) :
    w = "stere".toList ∧ (k = .polarStereographic ↔ AtPole L s) := by
  have hs : ∀ e ∈ simple, e.2 ≠ .stereographic ∧ e.2 ≠ .polarStereographic := by decide
  cases hc with
  | simple he _ => exact absurd hk (by have := hs _ he; simp [this])
  | polar hw h => exact ⟨hw, fun _ => h, fun _ => rfl⟩
  | stereographic hw h => exact ⟨hw, (fun h' => by cases h'), fun h' => absurd h' h⟩
  | rotated _ _ => exact absurd hk (by decide)
  | unknown _ _ _ => exact absurd hk (by decide)

theorem class_rotated {L : Lib K} {s w : Text} {k : Kind} (hc : ClassOf L s w k) (hk : k = .rotated) : w = "ob_tran".toList := by
  have hs : ∀ e ∈ simple, e.2 ≠ .rotated := by decide
  cases hc with
  | simple he _ => exact absurd hk (hs _ he)
  | polar _ _ => cases hk
  | stereographic _ _ => cases hk
  | rotated hw _ => exact hw
  | unknown _ _ _ => cases hk

/-- **C101.** The text of a projection from a text is of the same class. -/
theorem C101_class_kept {L : Lib K} (hL : Sane L) (hd : StrtodAgrees L) {fuel : ℕ} {s t : Text} {P : Projection K}
    (h : createByProj4 L fuel s = .ok P) (hk : P.kind ≠ .unknown) (ht : proj4String L P = .ok t)
    (hx : ∀ v, number L ["lat_0"] s = some v → Exact L v) :
    word "proj" t = some P.kind.word.toList ∧ ClassOf L t P.kind.word.toList P.kind := by
  obtain ⟨w, hw0, hc⟩ := C101_which.1 P h
  obtain ⟨-, own, e, hft⟩ := createByProj4_ok h
  have hw := hft.words hk
  refine ⟨write_proj hL hw hk ht, ?_⟩
  have hlat : P.kind = .stereographic ∨ P.kind = .polarStereographic → number L ["lat_0"] t = number L ["lat_0"] s := by
    intro hst
    have hp : Plain s P.kind := ⟨by rcases hst with h | h <;> rw [h] <;> decide, fun h' => by rcases hst with h | h <;> rw [h] at h' <;> cases h'⟩
    have hr : (⟨"lat_0", "latitude_of_projection_origin", false⟩ : Row) ∈ rows P.kind := by
      rcases hst with h | h <;> rw [h] <;> simp [rows]
    have hread := read_rows hd hft hp _ hr
    have hm : ("lat_0", ["latitude_of_projection_origin"]) ∈ writes P.kind := by
      rcases hst with h | h <;> rw [h] <;> decide
    have hwr := write_rows hL hw hk ht _ (List.mem_append_left _ hm)
    have hwr : word "lat_0" t = shownOf L P.params "latitude_of_projection_origin" := by
      rw [hwr]
      show List.findSome? (shownOf L P.params) ["latitude_of_projection_origin"] = _
      rw [List.findSome?_cons]
      cases shownOf L P.params "latitude_of_projection_origin" <;> rfl
    have hkept := kept_of hread hwr
    cases hs : word "lat_0" s with
    | none =>
      rw [number_of_no_word hs]
      refine number_of_no_word ?_
      rw [hwr, shownOf_none (hread.absent hs)]
    | some w =>
      -- the text was accepted: the number was read
      obtain ⟨hf, -⟩ := createByProj4_ok h
      have hacc := firstOf_some hf
      have hpol : ∃ b, accepts L s .polarStereographic = .ok b := by
        rcases hst with h | h
        · rw [h] at hacc
          exact ⟨_, hacc.2 .polarStereographic (by decide)⟩
        · rw [h] at hacc
          exact ⟨_, hacc.1⟩
      obtain ⟨b, hb⟩ := hpol
      have hstere : matchesName s "stere" = true := by
        have := (class_stere hc hst).1
        simp [matchesName, hw0, this]
      have hb : acceptsPolar L s = .ok b := hb
      unfold acceptsPolar at hb
      rw [if_pos hstere, hs] at hb
      obtain ⟨v, hv, -⟩ := Res.bind_eq_ok.1 hb
      have hn : number L ["lat_0"] s = some v := by rw [number_of_word hs, hv]; rfl
      rw [hn]
      exact hkept.given v hn (hx v hn)
  have hpole : (P.kind = .stereographic ∨ P.kind = .polarStereographic) → (AtPole L t ↔ AtPole L s) := by
    intro hst
    unfold AtPole
    rw [hlat hst]
  generalize hkk : P.kind = k at *
  cases k with
  | unknown => exact absurd rfl hk
  | polarStereographic =>
    refine .polar rfl ((hpole (.inr rfl)).2 ?_)
    exact (class_stere hc (.inr rfl)).2.1 rfl
  | stereographic =>
    refine .stereographic rfl fun hp => ?_
    have hp := (hpole (.inl rfl)).1 hp
    exact absurd ((class_stere hc (.inl rfl)).2.2 hp) (by decide)
  | rotated =>
    refine .rotated rfl (.inr ?_)
    refine Eq.trans (own_says hL hw (by rw [hkk]; exact hk) ht (keys := ["o_proj"]) ?_ (by decide)) ?_
    · simp only [List.forall_mem_cons]; exact ⟨key_of (by decide +kernel), by simp⟩
    · rw [hkk]; rfl
  | albers => exact .simple (e := ("aea", .albers)) (by decide) rfl
  | azimuthalEquidistant => exact .simple (e := ("aeqd", .azimuthalEquidistant)) (by decide) rfl
  | geostationary => exact .simple (e := ("geos", .geostationary)) (by decide) rfl
  | lambertAzimuthal => exact .simple (e := ("laea", .lambertAzimuthal)) (by decide) rfl
  | lambertConformal => exact .simple (e := ("lcc", .lambertConformal)) (by decide) rfl
  | lambertCylindrical => exact .simple (e := ("cea", .lambertCylindrical)) (by decide) rfl
  | latLong => exact .simple (e := ("latlong", .latLong)) (by decide) rfl
  | mercator => exact .simple (e := ("merc", .mercator)) (by decide) rfl
  | obliqueMercator => exact .simple (e := ("omerc", .obliqueMercator)) (by decide) rfl
  | orthographic => exact .simple (e := ("ortho", .orthographic)) (by decide) rfl
  | sinusoidal => exact .simple (e := ("sinu", .sinusoidal)) (by decide) rfl
  | transverseMercator => exact .simple (e := ("tmerc", .transverseMercator)) (by decide) rfl
  | verticalPerspective => exact .simple (e := ("nsper", .verticalPerspective)) (by decide) rfl

/-- **C101.** The pole of a rotated system is the same in the text of the projection from a text, up to whole turns. -/
theorem C101_rotated_kept [IsStrictOrderedRing K] {L : Lib K} (hL : Sane L) {fuel : ℕ} {s : Text} {P : Projection K}
    (h : createByProj4 L fuel s = .ok P) (hk : P.kind = .rotated) :
    ∃ t, proj4String L P = .ok t ∧
      (∀ v, v = (number L ["o_lat_p"] s).getD 90 → Exact L v → number L ["o_lat_p"] t = some v) ∧
      (∃ (n : ℤ) (v : K), v = (number L ["lon_0"] s).getD 0 + 360 * n ∧ -360 ≤ v ∧ v ≤ 0 ∧
        (L.string2type (L.print6 v) = .ok v → number L ["lon_0"] t = some v)) ∧
      (∀ v, number L ["o_lon_p"] s = some v → v > 1 / 10000 → Exact L v → number L ["o_lon_p"] t = some v) ∧
      (word "o_lon_p" s = none → word "o_lon_p" t = none) ∧
      Kept L s t ⟨"x_0", "false_easting", false⟩ ∧ Kept L s t ⟨"y_0", "false_northing", false⟩ ∧
      (∀ r, EarthOf L s (.sphere r) → Exact L r → EarthOf L t (.sphere r)) ∧
      (∀ a b, EarthOf L s (.ellipse a b) → Exact L a → Exact L b → EarthOf L t (.ellipse a b)) := by
  obtain ⟨⟨p, hp, ⟨n, hn⟩, hp1, hp2⟩, hlat, hlon⟩ := C101_rotated h hk
  obtain ⟨-, own, e, hft⟩ := createByProj4_ok h
  have hku : P.kind ≠ .unknown := by rw [hk]; decide
  have hw := hft.words hku
  have hu : matchesName s "utm" = false := by
    obtain ⟨w, hw0, hc⟩ := C101_which.1 P h
    have := class_rotated hc hk
    simp [matchesName, hw0, this]
  obtain ⟨u, hpart⟩ := projectionPart_ok L (ps := P.params) hku (by
    intro hc; rw [hk] at hc; rcases hc with hc | hc <;> cases hc)
  have ht : ∃ t, proj4String L P = .ok t := by
    unfold proj4String
    split
    · rename_i e'; exact absurd e' hku
    · rw [hpart]; exact ⟨_, rfl⟩
  obtain ⟨t, ht⟩ := ht
  have hwrite := write_rows hL hw hku ht
  rw [hk] at hwrite
  have single : ∀ a, List.findSome? (shownOf L P.params) [a] = shownOf L P.params a := by
    intro a
    rw [List.findSome?_cons]
    cases shownOf L P.params a <;> rfl
  have w1 : word "o_lat_p" t = shownOf L P.params "grid_north_pole_latitude" := by
    rw [hwrite ("o_lat_p", ["grid_north_pole_latitude"]) (by decide), single]
  have w2 : word "o_lon_p" t = shownOf L P.params "north_pole_grid_longitude" := by
    rw [hwrite ("o_lon_p", ["north_pole_grid_longitude"]) (by decide), single]
  have w3 : word "x_0" t = shownOf L P.params "false_easting" := by
    rw [hwrite ("x_0", ["false_easting"]) (by decide), single]
  have w4 : word "y_0" t = shownOf L P.params "false_northing" := by
    rw [hwrite ("y_0", ["false_northing"]) (by decide), single]
  have w5 := write_pole hL hw hk ht hp
  have hfalse := read_false hft hu
  refine ⟨t, ht, fun v hv he => ?_, ⟨n, p - 180, by rw [hn]; ring, by linarith, by linarith, fun he => ?_⟩, fun v hv hgt he => ?_, fun hno => ?_,
    kept_of (readAs_opt hfalse.1) w3, kept_of (readAs_opt hfalse.2) w4, fun r hr he => ?_, fun a b hab ha hb => ?_⟩
  · refine number_exact (keys := ["o_lat_p"]) ?_ he
    subst hv
    exact w1.trans (shownOf_num hlat)
  · rw [number_of_word w5, he]
    rfl
  · rw [hv] at hlon
    rw [if_pos (by simpa using hgt)] at hlon
    refine number_exact (keys := ["o_lon_p"]) ?_ he
    exact w2.trans (shownOf_num hlon)
  · rw [number_of_no_word hno, if_neg] at hlon
    · exact w2.trans (shownOf_none hlon)
    · simp
  · exact write_figure hL hw hku ht (read_figure hft hr) he
  · exact write_figure hL hw hku ht (read_figure hft hab) ha hb

/-! ## Another earth -/

/-- The words of a text, split at spaces. -/
def parts (s : Text) : List Text := (s.splitOn ' ').filter (· ≠ [])

end

theorem occurs_iff {p s : Text} : occurs p s = true ↔ p <:+: s := by
  unfold occurs
  rw [List.any_eq_true]
  constructor
  · rintro ⟨t, ht, hp⟩
    exact (List.isPrefixOf_iff_prefix.1 hp).isInfix.trans (List.mem_tails _ _ |>.1 ht).isInfix
  · rintro ⟨a, b, h⟩
    exact ⟨p ++ b, (List.mem_tails _ _).2 ⟨a, by rw [← h]; simp⟩, List.isPrefixOf_iff_prefix.2 ⟨b, rfl⟩⟩

theorem parts_space (x y : Text) : parts (x ++ ' ' :: y) = parts x ++ parts y := by
  unfold parts
  rw [List.splitOn_append_cons_self, List.filter_append]

theorem parts_word {w : Text} (h : ' ' ∉ w) (hne : w ≠ []) : parts w = [w] := by
  unfold parts
  rw [List.splitOn_eq_singleton h]
  simp [hne]

theorem parts_joined : ∀ {ws : List Text} {new : Text}, (∀ w ∈ ws, ' ' ∉ w ∧ w ≠ []) → parts (joined [' '] (ws ++ [new])) = ws ++ parts new
  | [], new, _ => rfl
  | [w], new, h => by
    show parts (w ++ [' '] ++ new) = _
    rw [List.append_assoc, List.singleton_append, parts_space, parts_word (h w (by simp)).1 (h w (by simp)).2]
  | w :: v :: ws, new, h => by
    have ih := parts_joined (ws := v :: ws) (new := new) fun x hx => h x (List.mem_cons_of_mem _ hx)
    show parts (w ++ [' '] ++ joined [' '] (v :: ws ++ [new])) = _
    rw [List.append_assoc, List.singleton_append, parts_space, ih, parts_word (h w (by simp)).1 (h w (by simp)).2]
    rfl

theorem parts_clean {s w : Text} (h : w ∈ parts s) : ' ' ∉ w ∧ w ≠ [] := by
  unfold parts at h
  rw [List.mem_filter] at h
  refine ⟨?_, by simpa using h.2⟩
  have key : ∀ (t : Text) (w : Text), w ∈ t.splitOn ' ' → ' ' ∉ w := by
    intro t
    induction t with
    | nil => intro w hw; simp at hw; subst hw; simp
    | cons c t ih =>
      intro w hw
      rw [List.splitOn_cons_eq_if_modifyHead] at hw
      split at hw
      · rcases List.mem_cons.1 hw with rfl | hw
        · simp
        · exact ih w hw
      · rename_i hc
        cases hsp : t.splitOn ' ' with
        | nil => rw [hsp] at hw; simp at hw
        | cons x xs =>
          rw [hsp] at hw ih
          rw [List.modifyHead_cons] at hw
          rcases List.mem_cons.1 hw with rfl | hw
          · have := ih x (by simp)
            intro hm
            rcases List.mem_cons.1 hm with e | hm
            · exact hc (by simp [← e])
            · exact this hm
          · exact ih w (List.mem_cons_of_mem _ hw)
  exact key s w h.1

/-- **C101.** With another figure of the earth the words of a text that have one of `+a=`, `+b=`, `+e=`, `+R=`, `+ellps=`, `+datum=` are
taken out, the others stay in their order, and the new figure comes last; no new figure leaves the text as it is. -/
theorem C101_replace (s new : Text) :
    (new = [] → replaceEarth s new = s) ∧
    (new ≠ [] → parts (replaceEarth s new) =
      (parts s).filter (fun w => ∀ e ∈ ["+a=", "+b=", "+e=", "+R=", "+ellps=", "+datum="], ¬ e.toList <:+: w) ++ parts new) := by
  unfold replaceEarth
  refine ⟨fun h => if_pos h, fun h => ?_⟩
  rw [if_neg h]
  have he : (parts s).filter (fun p => ¬ earthParts.any fun e => occurs e p) =
      (parts s).filter (fun w => ∀ e ∈ ["+a=", "+b=", "+e=", "+R=", "+ellps=", "+datum="], ¬ e.toList <:+: w) := by
    refine List.filter_congr fun w _ => ?_
    simp only [List.any_eq_true, not_exists, not_and, earthParts, List.mem_map, forall_exists_index, and_imp, forall_apply_eq_imp_iff₂,
      occurs_iff]
  rw [← he]
  exact parts_joined fun w hw => parts_clean (List.mem_of_mem_filter hw)

end Fimex.Proj
