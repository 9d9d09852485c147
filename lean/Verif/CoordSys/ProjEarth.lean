import Verif.CoordSys.ProjKept

/-!
# The figure of the earth in a text and in the attributes
-/

namespace Fimex.Proj

variable {K : Type}

/-- The earth: a sphere, an ellipse by its axes, or by the longer one and the inverse flattening. -/
inductive Figure (K : Type) where
  | sphere (r : K)
  | ellipse (a b : K)
  | flattened (a f : K)

/-- The attributes have that figure. -/
def HasFigure (ps : List (Attr K)) : Figure K → Prop
  | .sphere r => find "earth_radius" ps = some (num "earth_radius" r) ∧ find "semi_major_axis" ps = none ∧
      find "semi_minor_axis" ps = none ∧ find "inverse_flattening" ps = none
  | .ellipse a b => find "earth_radius" ps = none ∧ find "semi_major_axis" ps = some (num "semi_major_axis" a) ∧
      find "semi_minor_axis" ps = some (num "semi_minor_axis" b) ∧ find "inverse_flattening" ps = none
  | .flattened a f => find "earth_radius" ps = none ∧ find "semi_major_axis" ps = some (num "semi_major_axis" a) ∧
      find "semi_minor_axis" ps = none ∧ find "inverse_flattening" ps = some (num "inverse_flattening" f)

section
variable [Field K]

/-- The ellipsoids known by name: in metres. -/
def ellipsoids : List (String × Figure K) :=
  [("wgs84", .ellipse 6378137 (63567523142 / 10000)), ("nad83", .ellipse 6378137 (63567523 / 10)),
   ("grs80", .ellipse 6378137 (63567523141 / 10000)), ("etrs89", .ellipse 6378137 (63567523141 / 10000)),
   ("nad27", .ellipse (63782064 / 10) (63565838 / 10)), ("wgs72", .ellipse 6378135 (635675052 / 100)),
   ("iers89", .ellipse 6378136 (6356751302 / 1000)), ("iers03", .ellipse (63781366 / 10) (63567519 / 10)),
   ("intl", .ellipse 6378388 6356909), ("bessel", .flattened (6377397155 / 1000) (2991528128 / 10000000))]

/-- The text names one of them, by `+ellps=` or else by `+datum=`, in any case of letters. -/
def Names (s : Text) (f : Figure K) : Prop :=
  ∃ n ∈ (word "ellps" s).or (word "datum" s), ∃ e ∈ ellipsoids, n.map Char.toLower = e.1.toList ∧ f = e.2

/-- No eccentricity. -/
def Round (s : Text) : Prop := word "e" s = none ∨ word "e" s = some "0".toList

/-- The earth of a text. -/
inductive EarthOf (L : Lib K) (s : Text) : Figure K → Prop
  | absent (h : search noSpace [plus "a", plus "R"] s = none) (hn : ∀ f : Figure K, ¬ Names s f) : EarthOf L s (.sphere 6371000)
  | named {f : Figure K} (h : search noSpace [plus "a", plus "R"] s = none) (hn : Names s f) : EarthOf L s f
  | sphere {a : K} (h : number L ["a", "R"] s = some a) (he : Round s) (hb : word "b" s = none) (hn : ∀ f : Figure K, ¬ Names s f) :
      EarthOf L s (.sphere a)
  | minor {a b : K} (h : number L ["a", "R"] s = some a) (he : Round s) (hb : number L ["b"] s = some b)
      (hn : ∀ f : Figure K, ¬ Names s f) : EarthOf L s (.ellipse a b)
  | eccentric {a e : K} (h : number L ["a", "R"] s = some a) (he : number L ["e"] s = some e) (h0 : ¬ Round s)
      (hn : ∀ f : Figure K, ¬ Names s f) : EarthOf L s (.ellipse a (L.sqrt (a * a * (1 - e * e))))

theorem ellipsoidName_eq (s : Text) : ellipsoidName s = (word "ellps" s).or (word "datum" s) := by
  unfold ellipsoidName
  cases word "ellps" s <;> rfl

/-- The attributes of a figure. -/
def attrsOf : Figure K → List (Attr K)
  | .sphere r => [num "earth_radius" r]
  | .ellipse a b => axes a b
  | .flattened a f => [num "semi_major_axis" a, num "inverse_flattening" f]

theorem ellipsoid_known : ∀ e ∈ (ellipsoids : List (String × Figure K)), ellipsoid e.1.toList = attrsOf e.2 := by
  intro e he
  simp only [ellipsoids, List.mem_cons, List.not_mem_nil, or_false] at he
  rcases he with rfl | rfl | rfl | rfl | rfl | rfl | rfl | rfl | rfl | rfl <;> simp [ellipsoid, attrsOf, axes]

theorem ellipsoid_eq {n : Text} {e : String × Figure K} (he : e ∈ (ellipsoids : List (String × Figure K)))
    (h : n.map Char.toLower = e.1.toList) : ellipsoid n = attrsOf e.2 := by
  rw [← ellipsoid_known e he]
  have hl : e.1.toList.map Char.toLower = e.1.toList := by
    simp only [ellipsoids, List.mem_cons, List.not_mem_nil, or_false] at he
    rcases he with rfl | rfl | rfl | rfl | rfl | rfl | rfl | rfl | rfl | rfl <;> dsimp only <;> decide +kernel
  unfold ellipsoid
  rw [hl, h]

theorem ellipsoid_nil {n : Text} (h : ∀ e ∈ (ellipsoids : List (String × Figure K)), n.map Char.toLower ≠ e.1.toList) :
    (ellipsoid n : List (Attr K)) = [] := by
  simp only [ellipsoids, List.forall_mem_cons] at h
  obtain ⟨h1, h2, h3, h4, h5, h6, h7, h8, h9, h10, -⟩ := h
  unfold ellipsoid
  simp only [h1, h2, h3, h4, h5, h6, h7, h8, h9, h10, if_false, or_self]

/-- The list of attributes for a name. -/
def namedPart (s : Text) : List (Attr K) := match ellipsoidName s with | some n => ellipsoid n | none => []

theorem namedPart_some {s : Text} {f : Figure K} (h : Names s f) : namedPart s = attrsOf f := by
  obtain ⟨n, hn, e, he, hl, rfl⟩ := h
  unfold namedPart
  rw [ellipsoidName_eq, hn]
  exact ellipsoid_eq he hl

theorem namedPart_none {s : Text} (h : ∀ f : Figure K, ¬ Names s f) : (namedPart s : List (Attr K)) = [] := by
  unfold namedPart
  rw [ellipsoidName_eq]
  cases hn : (word "ellps" s).or (word "datum" s) with
  | none => rfl
  | some n => exact ellipsoid_nil fun e he hl => h e.2 ⟨n, hn, e, he, hl, rfl⟩

omit [Field K] in
theorem number_two {L : Lib K} {s : Text} {v : K} {keys : List String} (h : number L keys s = some v) :
    ∃ w, search noSpace (keys.map plus) s = some w ∧ L.string2type w = .ok v := by
  unfold number at h
  obtain ⟨w, hw, hv⟩ := Option.bind_eq_some_iff.1 h
  refine ⟨w, hw, ?_⟩
  cases hr : L.string2type w with
  | ok a => rw [hr] at hv; exact congrArg Res.ok (Option.some.inj hv)
  | throws => rw [hr] at hv; cases hv
  | ub => rw [hr] at hv; cases hv

theorem axes_absent {L : Lib K} {s : Text} (h : search noSpace [plus "a", plus "R"] s = none) : axesFrom L s = .ok [] := by
  unfold axesFrom; rw [h]

theorem axes_sphere {L : Lib K} {s : Text} {a : K} (h : number L ["a", "R"] s = some a) (he : Round s) (hb : word "b" s = none) :
    axesFrom L s = .ok [num "semi_major_axis" a, num "earth_radius" a] := by
  obtain ⟨w, hw, hv⟩ := number_two h
  have hw : search noSpace [plus "a", plus "R"] s = some w := hw
  unfold axesFrom
  rw [hw]
  dsimp only
  rw [hv, Res.ok_bind]
  rcases he with he | he <;> rw [he] <;> dsimp only
  · rw [Res.ok_bind, hb]
  · rw [if_pos rfl, Res.ok_bind, hb]

theorem axes_minor {L : Lib K} {s : Text} {a b : K} (h : number L ["a", "R"] s = some a) (he : Round s)
    (hb : number L ["b"] s = some b) : axesFrom L s = .ok (num "semi_major_axis" a :: axes a b) := by
  obtain ⟨w, hw, hv⟩ := number_two h
  have hw : search noSpace [plus "a", plus "R"] s = some w := hw
  obtain ⟨wb, hwb, hvb⟩ := number_some hb
  unfold axesFrom
  rw [hw]
  dsimp only
  rw [hv, Res.ok_bind]
  rcases he with he | he <;> rw [he] <;> dsimp only
  · rw [Res.ok_bind, hwb]; dsimp only; rw [hvb]; rfl
  · rw [if_pos rfl, Res.ok_bind, hwb]; dsimp only; rw [hvb]; rfl

theorem axes_eccentric {L : Lib K} {s : Text} {a e : K} (h : number L ["a", "R"] s = some a) (he : number L ["e"] s = some e)
    (h0 : ¬ Round s) : axesFrom L s = .ok (num "semi_major_axis" a :: axes a (L.sqrt (a * a * (1 - e * e)))) := by
  obtain ⟨w, hw, hv⟩ := number_two h
  have hw : search noSpace [plus "a", plus "R"] s = some w := hw
  obtain ⟨we, hwe, hve⟩ := number_some he
  unfold axesFrom
  rw [hw]
  dsimp only
  have hne : we ≠ "0".toList := fun e => h0 (.inr (by rw [hwe, e]))
  rw [hv, Res.ok_bind, hwe]
  dsimp only
  rw [if_neg hne, hve]
  rfl

variable [LinearOrder K]

/-- What counts for the figure. -/
theorem FromText.figure {L : Lib K} {fuel : ℕ} {s : Text} {P : Projection K} {own e A : List (Attr K)} (h : FromText L fuel s P own e)
    (hA : axesFrom L s = .ok A) {n : String} (hn : n ∈ earthNames) :
    find n P.params = (A ++ namedPart s).foldl upd (fun n => find n (fresh P.kind : Projection K).params) n := by
  have := congrFun h.found n
  rw [this, foldl_earth hn]
  rw [List.filter_cons, if_neg (by simp [txt, earthNames]), List.filter_append, List.filter_append]
  have h1 : (own.filter fun a => a.name ∈ earthNames) = [] := by
    rw [List.filter_eq_nil_iff]
    intro a ha
    simpa using (own_names h.isOwn a ha).1
  have h2 : ((backOf s P.kind : List (Attr K)).filter fun a => a.name ∈ earthNames) = [] := by
    rw [List.filter_eq_nil_iff]
    intro a ha
    unfold backOf at ha
    split at ha
    · simp only [List.mem_cons, List.not_mem_nil, or_false] at ha
      subst ha
      simp [txt, earthNames]
    · simp at ha
  rw [h1, h2, earth_filter h.earth hA]
  simp only [List.nil_append, List.append_nil]
  rfl

omit [LinearOrder K] in
theorem has_of {k : Kind} {ps l : List (Attr K)} {f : Figure K}
    (h : ∀ n ∈ earthNames, find n ps = l.foldl upd (fun n => find n (fresh k : Projection K).params) n)
    (hl : l = attrsOf f ∨ (∃ a b, f = .ellipse a b ∧ l = num "semi_major_axis" a :: axes a b) ∨
      (∃ a, f = .sphere a ∧ l = [num "semi_major_axis" a, num "earth_radius" a]) ∨ (f = .sphere 6371000 ∧ l = [])) : HasFigure ps f := by
  have h1 := h "earth_radius" (by decide)
  have h2 := h "semi_major_axis" (by decide)
  have h3 := h "semi_minor_axis" (by decide)
  have h4 := h "inverse_flattening" (by decide)
  rcases hl with rfl | ⟨a, b, rfl, rfl⟩ | ⟨a, rfl, rfl⟩ | ⟨rfl, rfl⟩
  · cases f <;>
      simp [attrsOf, axes, upd, num, Clash, fresh, find_cons, find_nil] at h1 h2 h3 h4 <;>
      simp [HasFigure, h1, h2, h3, h4, num]
  · simp [axes, upd, num, Clash, fresh, find_cons, find_nil] at h1 h2 h3 h4
    simp [HasFigure, h1, h2, h3, h4, num]
  · simp [upd, num, Clash, fresh, find_cons, find_nil] at h1 h2 h3 h4
    simp [HasFigure, h1, h2, h3, h4, num]
  · simp [num, fresh, find_cons, find_nil] at h1 h2 h3 h4
    simp [HasFigure, h1, h2, h3, h4, num]

/-- The figure of the text is that of the attributes. -/
theorem read_figure {L : Lib K} {fuel : ℕ} {s : Text} {P : Projection K} {own e : List (Attr K)} (h : FromText L fuel s P own e)
    {f : Figure K} (hf : EarthOf L s f) : HasFigure P.params f := by
  cases hf with
  | absent ha hn =>
    refine has_of (k := P.kind) (fun n hm => h.figure (axes_absent ha) hm) ?_
    rw [namedPart_none hn]
    exact .inr (.inr (.inr ⟨rfl, rfl⟩))
  | named ha hn =>
    refine has_of (k := P.kind) (fun n hm => h.figure (axes_absent ha) hm) ?_
    rw [namedPart_some hn]
    exact .inl rfl
  | sphere ha he hb hn =>
    refine has_of (k := P.kind) (fun n hm => h.figure (axes_sphere ha he hb) hm) ?_
    rw [namedPart_none hn]
    exact .inr (.inr (.inl ⟨_, rfl, rfl⟩))
  | minor ha he hb hn =>
    refine has_of (k := P.kind) (fun n hm => h.figure (axes_minor ha he hb) hm) ?_
    rw [namedPart_none hn, List.append_nil]
    exact .inr (.inl ⟨_, _, rfl, rfl⟩)
  | eccentric ha he h0 hn =>
    refine has_of (k := P.kind) (fun n hm => h.figure (axes_eccentric ha he h0) hm) ?_
    rw [namedPart_none hn, List.append_nil]
    exact .inr (.inl ⟨_, _, rfl, rfl⟩)

omit [LinearOrder K] in
/-- Every text that can be read has a figure, unless it has both an axis and a name. -/
theorem earthOf_exists {L : Lib K} {s : Text} {e : List (Attr K)} (h : earthAttributes L s = .ok e)
    (hn : search noSpace [plus "a", plus "R"] s = none ∨ ∀ f : Figure K, ¬ Names s f) : ∃ f, EarthOf L s f := by
  classical
  by_cases ha : search noSpace [plus "a", plus "R"] s = none
  · by_cases hm : ∃ f : Figure K, Names s f
    · obtain ⟨f, hf⟩ := hm
      exact ⟨f, .named ha hf⟩
    · exact ⟨_, .absent ha fun f hf => hm ⟨f, hf⟩⟩
  · replace hn := hn.resolve_left ha
    obtain ⟨A, -, hA, -, -⟩ := earthAttributes_ok h
    obtain ⟨w, hw⟩ := Option.ne_none_iff_exists'.1 ha
    unfold axesFrom at hA
    rw [hw] at hA
    obtain ⟨a, hv, hA⟩ := Res.bind_eq_ok.1 hA
    have hnum : number L ["a", "R"] s = some a := by
      unfold number
      rw [show search noSpace (["a", "R"].map plus) s = some w from hw]
      show okOf (L.string2type w) = _
      rw [hv]; rfl
    obtain ⟨r, hr, hA⟩ := Res.bind_eq_ok.1 hA
    have hround : Round s → ∃ f, EarthOf L s f := by
      intro hR
      have : r = none := by
        rcases hR with he | he <;> rw [he] at hr <;> dsimp only at hr
        · cases hr; rfl
        · rw [if_pos rfl] at hr; cases hr; rfl
      subst this
      dsimp only at hA
      cases hb : word "b" s with
      | none => exact ⟨_, .sphere hnum hR hb hn⟩
      | some wb =>
        rw [hb] at hA
        obtain ⟨b, hvb, -⟩ := Res.bind_eq_ok.1 hA
        exact ⟨_, .minor hnum hR (b := b) (by rw [number_of_word hb, hvb]; rfl) hn⟩
    by_cases hR : Round s
    · exact hround hR
    · cases he : word "e" s with
      | none => exact absurd (.inl he) hR
      | some we =>
        rw [he] at hr
        dsimp only at hr
        rw [if_neg fun e0 => hR (.inr (by rw [he, e0]))] at hr
        obtain ⟨ev, hve, -⟩ := Res.bind_eq_ok.1 hr
        exact ⟨_, .eccentric hnum (e := ev) (by rw [number_of_word he, hve]; rfl) hR hn⟩

/-! ## Written -/

/-- The number is printed exactly. -/
def Exact (L : Lib K) (v : K) : Prop := L.string2type (L.print v) = .ok v

/-- The keys of the classes. -/
def ownKeys : List String :=
  ["proj", "o_proj", "lat_0", "lat_1", "lat_2", "lat_ts", "lon_0", "lonc", "h", "k", "k_0", "alpha", "gamma", "sweep", "o_lat_p", "o_lon_p"]

omit [Field K] [LinearOrder K] in
theorem item_keys (L : Lib K) (ps : List (Attr K)) (n key : String) : ∀ i ∈ item L ps n key, ∀ k v, i = .kv k v → k = key := by
  intro i hi k v e
  unfold item at hi
  split at hi
  · simp only [List.mem_cons, List.not_mem_nil, or_false] at hi
    rw [hi] at e; cases e; rfl
  · simp at hi

omit [LinearOrder K] in
theorem own_keys (L : Lib K) (ps : List (Attr K)) (k : Kind) : ∀ i ∈ ownItems L ps k, ∀ key v, i = .kv key v → key ∈ ownKeys := by
  have it : ∀ n key, key ∈ ownKeys → ∀ i ∈ item L ps n key, ∀ k v, i = .kv k v → k ∈ ownKeys := by
    intro n key hk i hi k v e
    rw [item_keys L ps n key i hi k v e]; exact hk
  have kv : ∀ k v, k ∈ ownKeys → ∀ key w, Item.kv k v = .kv key w → key ∈ ownKeys := by
    intro k v hk key w e; cases e; exact hk
  have par : ∀ i ∈ parallelItems L ps, ∀ key v, i = .kv key v → key ∈ ownKeys := by
    unfold parallelItems
    split
    · simp only [List.forall_mem_cons]
      exact ⟨kv _ _ (by decide), kv _ _ (by decide), by simp⟩
    · split
      · simp
      · simp only [List.forall_mem_cons]
        exact ⟨kv _ _ (by decide), kv _ _ (by decide), by simp⟩
  have pol : ∀ i ∈ poleItems L ps, ∀ key v, i = .kv key v → key ∈ ownKeys := by
    unfold poleItems
    split
    · simp
    · split
      · simp
      · simp only [List.forall_mem_cons]
        exact ⟨kv _ _ (by decide), by simp⟩
  have nor : ∀ i ∈ noRotItems L ps, ∀ key v, i = .kv key v → key ∈ ownKeys := by
    unfold noRotItems
    split
    · simp
    · simp
  cases k <;> simp only [ownItems, List.forall_mem_append, List.forall_mem_cons]
  all_goals
    repeat' (first
      | exact kv _ _ (by decide)
      | exact it _ _ (by decide)
      | exact par
      | exact pol
      | exact nor
      | (intro i hi; simp at hi)
      | apply And.intro)

omit [Field K] [LinearOrder K] in
theorem lookup_none {keys : List String} {items : List Item} (h : ∀ i ∈ items, ∀ k v, i = .kv k v → k ∉ keys) : lookup keys items = none := by
  unfold lookup
  rw [List.findSome?_eq_none_iff]
  intro i hi
  cases i with
  | kv k v => exact if_neg (h _ hi k v rfl)
  | flag f => rfl
  | gap => rfl

omit [LinearOrder K] in
theorem own_none {L : Lib K} {ps : List (Attr K)} {k : Kind} {keys : List String} (h : ∀ x ∈ keys, x ∉ ownKeys) :
    lookup keys (ownItems L ps k) = none :=
  lookup_none fun i hi key v e hm => h key hm (own_keys L ps k i hi key v e)

/-- The earth in a text that was written. -/
theorem earth_says {L : Lib K} (hL : Sane L) {P : Projection K} (hw : Words P.params) {t : Text} (hk : P.kind ≠ .unknown)
    (h : proj4String L P = .ok t) {keys : List String} (hkeys : ∀ k ∈ keys, CleanKey k) (ho : ∀ x ∈ keys, x ∉ ownKeys)
    (hx : "x_0" ∉ keys) (hy : "y_0" ∉ keys) :
    search noSpace (keys.map plus) t = lookup keys (earthItems L P.params) := by
  rw [text_says hL hw hk h hkeys, textItems, lookup_append, own_none ho, lookup_append, lookup_item, if_neg hx, lookup_append,
    lookup_item, if_neg hy, lookup_gap, lookup_append, lookup_flag, lookup_nil]
  simp

theorem no_names {L : Lib K} (hL : Sane L) {P : Projection K} (hw : Words P.params) {t : Text} (hk : P.kind ≠ .unknown)
    (h : proj4String L P = .ok t) (f : Figure K) : ¬ Names t f := by
  have hno : ∀ key : String, CleanKey key → key ∉ ownKeys → key ∉ ["x_0", "y_0", "a", "b", "e", "rf", "towgs84"] → word key t = none := by
    intro key hc ho hx
    simp only [List.mem_cons, List.not_mem_nil, or_false, not_or] at hx
    obtain ⟨h1, h2, h3, h4, h5, h6, h7⟩ := hx
    have := earth_says hL hw hk h (keys := [key]) (by simpa using hc) (by simpa using ho) (by simpa using Ne.symm h1) (by simpa using Ne.symm h2)
    refine Eq.trans this ?_
    refine lookup_none fun i hi k v e => ?_
    subst e
    rw [List.mem_singleton]
    unfold earthItems at hi
    rw [List.mem_append] at hi
    have kv : ∀ (a : String) (u : Text), Item.kv k v = .kv a u → key ≠ a → k ≠ key := by
      intro a u e hne hkey; cases e; exact hne hkey.symm
    rcases hi with hi | hi
    · split at hi
      · simp only [List.mem_cons, List.not_mem_nil, or_false] at hi
        rcases hi with hi | hi
        · exact kv _ _ hi h3
        · exact kv _ _ hi h5
      · split at hi
        · simp only [List.mem_append, List.mem_cons, List.not_mem_nil, or_false] at hi
          rcases hi with (((hi | hi) | hi) | hi) | hi
          · exact kv _ _ hi h3
          · cases hi
          · rw [item_keys _ _ _ _ _ hi _ _ rfl]; exact Ne.symm h4
          · split at hi
            · simp only [List.mem_cons, List.not_mem_nil, or_false] at hi
              exact kv _ _ hi h6
            · simp at hi
          · split at hi
            · simp only [List.mem_cons, List.not_mem_nil, or_false] at hi
              exact kv _ _ hi h5
            · simp at hi
        · simp only [List.mem_cons, List.not_mem_nil, or_false] at hi
          rcases hi with hi | hi
          · exact kv _ _ hi h3
          · exact kv _ _ hi h5
    · rw [item_keys _ _ _ _ _ hi _ _ rfl]; exact Ne.symm h7
  rintro ⟨n, hn, -⟩
  rw [hno "ellps" (key_of (by decide +kernel)) (by decide) (by decide), hno "datum" (key_of (by decide +kernel)) (by decide) (by decide)] at hn
  cases hn

omit [Field K] [LinearOrder K] in
theorem shownOf_num {L : Lib K} {ps : List (Attr K)} {n : String} {v : K} (h : find n ps = some (num n v)) :
    shownOf L ps n = some (L.print v) := by
  unfold shownOf
  rw [h]; rfl

omit [Field K] [LinearOrder K] in
theorem shownOf_none {L : Lib K} {ps : List (Attr K)} {n : String} (h : find n ps = none) : shownOf L ps n = none := by
  unfold shownOf
  rw [h]; rfl

omit [Field K] [LinearOrder K] in
theorem number_exact {L : Lib K} {keys : List String} {t : Text} {v : K} (h : search noSpace (keys.map plus) t = some (L.print v))
    (hv : Exact L v) : number L keys t = some v := by
  unfold number
  rw [h]
  show okOf (L.string2type (L.print v)) = _
  rw [hv]; rfl

/-- The figure of the attributes is that of the text; of a flattening the text has `+rf=`, which is not read. -/
theorem write_figure {L : Lib K} (hL : Sane L) {P : Projection K} (hw : Words P.params) {t : Text} (hk : P.kind ≠ .unknown)
    (h : proj4String L P = .ok t) {f : Figure K} (hf : HasFigure P.params f) :
    match f with
    | .sphere r => Exact L r → EarthOf L t (.sphere r)
    | .ellipse a b => Exact L a → Exact L b → EarthOf L t (.ellipse a b)
    | .flattened a g => 0 < g → Exact L a → word "rf" t = some (L.print g) ∧ EarthOf L t (.sphere a) := by
  have hn : ∀ f : Figure K, ¬ Names t f := no_names hL hw hk h
  have hA := earth_says hL hw hk h (keys := ["a", "R"]) (by
    simp only [List.forall_mem_cons]; exact ⟨key_of (by decide +kernel), key_of (by decide +kernel), by simp⟩) (by decide) (by decide) (by decide)
  have hE : word "e" t = lookup ["e"] (earthItems L P.params) := earth_says hL hw hk h (keys := ["e"]) (by
    simp only [List.forall_mem_cons]; exact ⟨key_of (by decide +kernel), by simp⟩) (by decide) (by decide) (by decide)
  have hB : word "b" t = lookup ["b"] (earthItems L P.params) := earth_says hL hw hk h (keys := ["b"]) (by
    simp only [List.forall_mem_cons]; exact ⟨key_of (by decide +kernel), by simp⟩) (by decide) (by decide) (by decide)
  have hF : word "rf" t = lookup ["rf"] (earthItems L P.params) := earth_says hL hw hk h (keys := ["rf"]) (by
    simp only [List.forall_mem_cons]; exact ⟨key_of (by decide +kernel), by simp⟩) (by decide) (by decide) (by decide)
  unfold earthItems at hA hE hB hF
  cases f with
  | sphere r =>
    intro hr
    obtain ⟨h1, -, -, -⟩ := hf
    rw [shownOf_num h1] at hA hE hB
    dsimp only at hA hE hB
    simp only [lookup_append, lookup_kv, lookup_nil, lookup_item] at hA hE hB
    refine .sphere (number_exact (by rw [hA]; simp) hr) (.inr (by rw [hE]; simp)) (by rw [hB]; simp) hn
  | ellipse a b =>
    intro ha hb
    obtain ⟨h1, h2, h3, h4⟩ := hf
    have hi : inverseFlattening L P.params = -1 := by unfold inverseFlattening; rw [h4]
    rw [shownOf_none h1, shownOf_num h2] at hA hE hB
    dsimp only at hA hE hB
    rw [hi, shownOf_num h3] at hA hE hB
    simp only [List.cons_append, List.nil_append, lookup_append, lookup_kv, lookup_gap, lookup_item, shownOf_num h3] at hA hE hB
    refine .minor (number_exact (by rw [hA]; simp) ha) (.inl ?_) (number_exact (keys := ["b"]) ?_ hb) hn
    · rw [hE]
      by_cases h0 : (-1 : K) > 0 <;> simp [h0, lookup_nil, lookup_kv]
    · show word "b" t = _
      rw [hB]
      simp
  | flattened a g =>
    intro hg ha
    obtain ⟨h1, h2, h3, h4⟩ := hf
    have hi : inverseFlattening L P.params = g := by unfold inverseFlattening; rw [h4]; rfl
    rw [shownOf_none h1, shownOf_num h2] at hA hE hB hF
    dsimp only at hA hE hB hF
    rw [hi, shownOf_none h3, if_pos hg, if_neg fun h => absurd hg (not_lt.2 h.1)] at hA hE hB hF
    simp only [List.cons_append, List.nil_append, lookup_append, lookup_kv, lookup_gap, lookup_nil, lookup_item, shownOf_none h3] at hA hE hB hF
    refine ⟨by rw [hF]; simp, .sphere (number_exact (by rw [hA]; simp) ha) (.inl ?_) ?_ hn⟩
    · rw [hE]; simp
    · rw [hB]; simp

end
end Fimex.Proj
