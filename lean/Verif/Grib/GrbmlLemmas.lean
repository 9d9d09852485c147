import Verif.Grib.Grbml
import Verif.Felt.ArraysProps

/-!
# Index files of GRIB files (C121): writing and reading back one message
-/

namespace Fimex.Grbml

/-! ## Numbers -/

theorem showInt_ne (i : ℤ) : showInt i ≠ "" := by
  intro h
  have : (showInt i).toList = [] := by rw [h]; rfl
  unfold showInt at this
  rw [String.toList_ofList, List.append_eq_nil_iff] at this
  exact Nat.toDigits_ne_nil this.2

theorem atol_showInt (i : ℤ) : atol (showInt i) = cutLong i := by
  unfold atol showInt
  rw [String.toList_ofList]
  by_cases hn : i < 0
  · rw [if_pos hn]
    have : (['-'] ++ Nat.toDigits 10 i.natAbs).dropWhile Char.isWhitespace = '-' :: Nat.toDigits 10 i.natAbs := by
      rw [List.singleton_append, List.dropWhile_cons_of_neg (by decide)]
    rw [this]
    simp only
    rw [Felt.digits_takeWhile, Felt.digitsNat_eq]
    congr 1
    omega
  · rw [if_neg hn, List.nil_append]
    obtain ⟨c, cs, hc⟩ : ∃ c cs, Nat.toDigits 10 i.natAbs = c :: cs := by
      cases h : Nat.toDigits 10 i.natAbs with
      | nil => exact absurd h Nat.toDigits_ne_nil
      | cons c cs => exact ⟨c, cs, rfl⟩
    have hd : c.isDigit = true := Felt.digit_of_toDigits (n := i.natAbs) (by rw [hc]; simp)
    have hdrop : (Nat.toDigits 10 i.natAbs).dropWhile Char.isWhitespace = Nat.toDigits 10 i.natAbs := by
      rw [hc, List.dropWhile_cons_of_neg]
      simp [Felt.digit_not_space hd]
    rw [hdrop]
    have hv : cutLong (Felt.digitsNat ((Nat.toDigits 10 i.natAbs).takeWhile Char.isDigit)) = cutLong i := by
      rw [Felt.digits_takeWhile, Felt.digitsNat_eq]
      congr 1
      omega
    rw [hc] at hv ⊢
    split
    · rename_i e
      simp only [List.cons.injEq] at e
      rw [e.1] at hd
      exact absurd hd (by decide)
    · rename_i e
      simp only [List.cons.injEq] at e
      rw [e.1] at hd
      exact absurd hd (by decide)
    · exact hv

/-- The range of `long`. -/
def InLong (i : ℤ) : Prop := -(2 ^ 63) ≤ i ∧ i < 2 ^ 63

theorem atol_show {i : ℤ} (h : InLong i) : atol (showInt i) = i := by
  rw [atol_showInt]
  unfold cutLong
  unfold InLong at h
  rw [if_neg (by omega), if_neg (by omega)]

/-- The range of `int`. -/
def InInt (i : ℤ) : Prop := -(2 ^ 31) ≤ i ∧ i < 2 ^ 31

theorem toInt_show {i : ℤ} (h : InInt i) : toInt (atol (showInt i)) = i := by
  unfold InInt at h
  rw [atol_show (by unfold InLong; omega)]
  unfold toInt
  rw [Int.bmod_eq_of_le] <;> omega

theorem size_show {n : ℕ} (h : n < 2 ^ 63) : Extractor.toSizeT (atol (showInt (n : ℤ))) = n := by
  rw [atol_show (by unfold InLong; omega)]
  unfold Extractor.toSizeT two64
  omega

/-! ## Messages which are kept -/

variable {F : Type}

/-- A grid is kept: its numbers are restored by printing and reading, sizes and scanning mode have their ranges. -/
structure GridKeeps (E : Env F) (edition : ℤ) (g : Grid F) : Prop where
  xSize : g.xSize < 2 ^ 63
  ySize : g.ySize < 2 ^ 63
  scan : 0 ≤ g.scan ∧ g.scan < 256
  numbers : ∀ x ∈ [g.xStart, g.yStart, g.xIncr, g.yIncr, g.lonStart, g.latStart], E.parse (E.print x) = x
  lon : E.wrap g.lonStart = g.lonStart
  resolution : g.resolution = resolutionFor E edition

/-- A message is kept by an index file. -/
structure Keeps (E : Env F) (m : Msg F) : Prop where
  url : m.url ≠ ""
  size : ∀ n, m.size = some n → n < 2 ^ 63
  longs : ∀ x ∈ [m.pos, m.date, m.time, m.stepStart, m.stepEnd, m.timeRange, m.statistic, m.levelType, m.levelNo], ∀ i, x = some i → InLong i
  ids : InInt m.ids.1 ∧ InInt m.ids.2.1 ∧ InInt m.ids.2.2
  ensemble : (0 < m.total ∧ InLong m.total ∧ InLong m.member) ∨ (m.total = 0 ∧ m.member = 0)
  others : Felt.Sorted Felt.nameLess m.others ∧ ∀ p ∈ m.others, InLong p.2
  grid : ∀ e, m.edition = some e → GridKeeps E e m.grid

theorem known_ok {A : Type} {x : Option A} {a : A} (h : known x = .ok a) : x = some a := by
  cases x with
  | none => simp [known] at h
  | some b => simp [known] at h; rw [h]

theorem unit_restored {u : ℤ} {t : String} (h : unitText u = .ok t) : ∃ n : ℕ, Tables.stepUnitsFromText t = .ok n ∧ (n : ℤ) = u := by
  unfold unitText at h
  by_cases hn : u < 0
  · rw [if_pos hn] at h; cases h
  · rw [if_neg hn] at h
    have h1 := (Tables.C55_codes_and_texts u.toNat t).1.1 h
    exact ⟨u.toNat, (Tables.C55_codes_and_texts u.toNat t).2.1.2 h1, by omega⟩

theorem put_last {k : String} {v : ℤ} {l : List (String × ℤ)} (h : ∀ p ∈ l, Felt.nameLess p.1 k = true) :
    Felt.mapPut Felt.nameLess k v l = l ++ [(k, v)] := by
  induction l with
  | nil => rfl
  | cons p l ih =>
    obtain ⟨a, b⟩ := p
    have h1 := h (a, b) (by simp)
    have h2 : Felt.nameLess k a = false := Felt.asymm Felt.nameLess_total h1
    dsimp only at h1
    rw [Felt.mapPut, h2, h1, ih fun p hp => h p (by simp [hp])]
    rfl

theorem read_others (E : Env F) (bad : Bool) (ix : Index F) (hv : Bool) (r : List Event) :
    ∀ (l2 l1 : List (String × ℤ)) (m : Msg F), m.others = l1 → Felt.Sorted Felt.nameLess (l1 ++ l2) → (∀ p ∈ l2, InLong p.2) →
      readNodes E bad ix (some (m, hv)) (otherElems l2 ++ r) = readNodes E bad ix (some ({ m with others := l1 ++ l2 }, hv)) r
  | [], l1, m, hm, _, _ => by
    subst hm
    simp [otherElems]
  | (k, v) :: l2, l1, m, hm, hs, hr => by
    have hlast : Felt.mapPut Felt.nameLess k v m.others = l1 ++ [(k, v)] := by
      rw [hm]
      exact put_last fun p hp => (List.pairwise_append.1 hs).2.2 p hp (k, v) (by simp)
    have hstep : readElem E m "extraKey" [("name", k), ("value", showInt v)] = .ok { m with others := l1 ++ [(k, v)] } := by
      have hv' : atol (showInt v) = v := atol_show (hr (k, v) (by simp))
      simp [readElem, extraAttr, hv', hlast]
    have ih := read_others E bad ix hv r l2 (l1 ++ [(k, v)]) { m with others := l1 ++ [(k, v)] } rfl (by rw [List.append_assoc]; exact hs) (fun p hp => hr p (by simp [hp]))
    unfold otherElems at ih ⊢
    rw [List.map_cons, List.cons_append, readNodes, hstep]
    simp only
    rw [show (hv || ("extraKey" == "grib1") || ("extraKey" == "grib2")) = hv by cases hv <;> decide, ih]
    simp

/-! ## One message -/

theorem read_grid (E : Env F) (m : Msg F) (e : ℤ) (he : m.edition = some e) (g : Grid F) (h : GridKeeps E e g) :
    ∀ as, gridElem E g = .elem "gridDefinition" as → readElem E m "gridDefinition" as = .ok { m with grid := g } := by
  intro as has
  unfold gridElem at has
  simp only [Event.elem.injEq, true_and] at has
  subst has
  obtain ⟨h1, h2, h3, h4, h5, h6⟩ := h
  simp only [List.mem_cons, List.not_mem_nil, or_false, forall_eq_or_imp, forall_eq] at h4
  obtain ⟨n1, n2, n3, n4, n5, n6⟩ := h4
  have hs : atol (showInt g.scan) = g.scan := atol_show (by unfold InLong; omega)
  have hx := size_show h1
  have hy := size_show h2
  have hd : decide (toInt (atol (showInt (if g.degree then 1 else 0))) ≠ 0) = g.degree := by
    rw [toInt_show (by unfold InInt; split <;> omega)]
    cases g.degree <;> rfl
  have hfold : ([("proj4", g.proj), ("isDegree", showInt (if g.degree then 1 else 0)), ("startX", E.print g.xStart), ("startY", E.print g.yStart), ("incrX", E.print g.xIncr), ("incrY", E.print g.yIncr), ("sizeX", showInt g.xSize), ("sizeY", showInt g.ySize), ("startLon", E.print g.lonStart), ("startLat", E.print g.latStart), ("scanMode", showInt g.scan)] : List (String × String)).foldlM (gridAttr E) (noDraft E)
      = .ok { g := { g with resolution := E.lit (-1) }, lon := true, lat := true } := by
    simp only [List.foldlM_cons, List.foldlM_nil, gridAttr, noDraft, String.reduceEq, if_true, if_false, Res.ok_bind, hs, hx, hy, hd, n1, n2, n3, n4, n5, n6, h3, and_self]
    rfl
  unfold readElem
  simp only [String.reduceEq, if_true, if_false]
  unfold readGridElem
  rw [hfold]
  simp only [Res.ok_bind, Bool.and_self, if_true, he, known]
  unfold mkGrid
  simp only [h5, ← h6]

theorem read_time (E : Env F) (m m0 : Msg F) (hk : Keeps E m) (as : List (String × String)) (h : timeElem m = .ok (.elem "time" as)) :
    readElem E m0 "time" as = .ok { m0 with date := m.date, time := m.time, unit := m.unit, stepType := m.stepType, timeRange := m.timeRange, statistic := m.statistic, stepStart := m.stepStart, stepEnd := m.stepEnd } := by
  unfold timeElem at h
  obtain ⟨d, hd, h⟩ := Res.bind_eq_ok.1 h
  obtain ⟨t, ht, h⟩ := Res.bind_eq_ok.1 h
  obtain ⟨u, hu, h⟩ := Res.bind_eq_ok.1 h
  obtain ⟨ut, hut, h⟩ := Res.bind_eq_ok.1 h
  obtain ⟨r, hr, h⟩ := Res.bind_eq_ok.1 h
  obtain ⟨s, hs, h⟩ := Res.bind_eq_ok.1 h
  obtain ⟨a, ha, h⟩ := Res.bind_eq_ok.1 h
  obtain ⟨b, hb, h⟩ := Res.bind_eq_ok.1 h
  simp only [Res.ok.injEq, Event.elem.injEq, true_and] at h
  subst h
  have l := hk.longs
  simp only [List.mem_cons, List.not_mem_nil, or_false, forall_eq_or_imp, forall_eq] at l
  obtain ⟨_, l1, l2, l3, l4, l5, l6, _, _⟩ := l
  have e1 := known_ok hd
  have e2 := known_ok ht
  have e3 := known_ok hu
  have e4 := known_ok hr
  have e5 := known_ok hs
  have e6 := known_ok ha
  have e7 := known_ok hb
  obtain ⟨n, hn1, hn2⟩ := unit_restored hut
  unfold readElem
  simp only [String.reduceEq, if_true, if_false, List.foldlM_cons, List.foldlM_nil, timeAttr, Res.ok_bind, hn1, Res.bind,
    atol_show (l1 d e1), atol_show (l2 t e2), atol_show (l3 a e6), atol_show (l4 b e7), atol_show (l5 r e4), atol_show (l6 s e5), e1, e2, e3, e4, e5, e6, e7, hn2]
  rfl

/-- A message is read back as it was written. -/
theorem read_message (E : Env F) (bad : Bool) (ix : Index F) (m : Msg F) (hk : Keeps E m) (es r : List Event) (h : writeMessage E m = .ok es) :
    readNodes E bad ix none (es ++ r) = readNodes E bad { ix with msgs := ix.msgs ++ [m] } none r := by
  unfold writeMessage at h
  obtain ⟨head, hh, h⟩ := Res.bind_eq_ok.1 h
  obtain ⟨ed, hed, h⟩ := Res.bind_eq_ok.1 h
  obtain ⟨ids, hids, h⟩ := Res.bind_eq_ok.1 h
  obtain ⟨level, hl, h⟩ := Res.bind_eq_ok.1 h
  obtain ⟨time, ht, h⟩ := Res.bind_eq_ok.1 h
  simp only [Res.ok.injEq] at h
  subst h
  have e0 := known_ok hed
  have l := hk.longs
  simp only [List.mem_cons, List.not_mem_nil, or_false, forall_eq_or_imp, forall_eq] at l
  obtain ⟨l0, _, _, _, _, _, _, l7, l8⟩ := l
  -- head
  unfold headElem at hh
  obtain ⟨p, hp, hh⟩ := Res.bind_eq_ok.1 hh
  obtain ⟨s, hs, hh⟩ := Res.bind_eq_ok.1 hh
  simp only [Res.ok.injEq] at hh
  subst hh
  have e1 := known_ok hp
  have e2 := known_ok hs
  have hhead : readHead E [("url", m.url), ("seekPos", showInt p), ("messagePos", "0"), ("messageSize", showInt s)] = .ok { noMsg E with url := m.url, pos := m.pos, size := m.size } := by
    unfold readHead
    simp only [List.foldlM_cons, List.foldlM_nil, headAttr, String.reduceEq, if_true, if_false, hk.url, showInt_ne, Res.ok_bind, atol_show (l0 p e1), size_show (hk.size s e2), e1, e2]
    rfl
  -- level
  unfold levelElem at hl
  obtain ⟨lt, hlt, hl⟩ := Res.bind_eq_ok.1 hl
  obtain ⟨ln, hln, hl⟩ := Res.bind_eq_ok.1 hl
  simp only [Res.ok.injEq] at hl
  subst hl
  have e3 := known_ok hlt
  have e4 := known_ok hln
  have hlevel : ∀ m0 : Msg F, readElem E m0 "level" [("type", showInt lt), ("no", showInt ln)] = .ok { m0 with levelType := m.levelType, levelNo := m.levelNo } := by
    intro m0
    unfold readElem
    simp only [String.reduceEq, if_true, if_false, List.foldl_cons, List.foldl_nil, levelAttr, atol_show (l7 lt e3), atol_show (l8 ln e4), e3, e4]
  -- parameter
  have hpar : ∀ m0 : Msg F, readElem E m0 "parameter" [("shortName", m.short), ("name", m.name)] = .ok { m0 with short := m.short, name := m.name } := by
    intro m0
    unfold readElem
    simp only [String.reduceEq, if_true, if_false, List.foldl_cons, List.foldl_nil, parameterAttr]
  -- ids
  obtain ⟨nm, as, hids1, hnm, hids2⟩ : ∃ nm as, ids = .elem nm as ∧ (nm = "grib1" ∨ nm = "grib2") ∧ ∀ m0 : Msg F, readElem E m0 nm as = .ok { m0 with edition := m.edition, ids := m.ids } := by
    obtain ⟨i1, i2, i3⟩ := hk.ids
    unfold idsElem at hids
    by_cases c1 : ed = 1
    · rw [if_pos c1] at hids
      simp only [Res.ok.injEq] at hids
      refine ⟨_, _, hids.symm, Or.inl rfl, fun m0 => ?_⟩
      unfold readElem
      simp only [String.reduceEq, if_true, if_false, List.foldl_cons, List.foldl_nil, idsAttr, toInt_show i1, toInt_show i2, toInt_show i3, e0, c1]
    · rw [if_neg c1] at hids
      by_cases c2 : ed = 2
      · rw [if_pos c2] at hids
        simp only [Res.ok.injEq] at hids
        refine ⟨_, _, hids.symm, Or.inr rfl, fun m0 => ?_⟩
        unfold readElem
        simp only [String.reduceEq, if_true, if_false, List.foldl_cons, List.foldl_nil, idsAttr, toInt_show i1, toInt_show i2, toInt_show i3, e0, c2]
      · rw [if_neg c2] at hids
        cases hids
  subst hids1
  -- time
  obtain ⟨tas, ht1⟩ : ∃ tas, time = .elem "time" tas := by
    have ht' := ht
    unfold timeElem at ht'
    obtain ⟨_, _, ht'⟩ := Res.bind_eq_ok.1 ht'
    obtain ⟨_, _, ht'⟩ := Res.bind_eq_ok.1 ht'
    obtain ⟨_, _, ht'⟩ := Res.bind_eq_ok.1 ht'
    obtain ⟨_, _, ht'⟩ := Res.bind_eq_ok.1 ht'
    obtain ⟨_, _, ht'⟩ := Res.bind_eq_ok.1 ht'
    obtain ⟨_, _, ht'⟩ := Res.bind_eq_ok.1 ht'
    obtain ⟨_, _, ht'⟩ := Res.bind_eq_ok.1 ht'
    obtain ⟨_, _, ht'⟩ := Res.bind_eq_ok.1 ht'
    simp only [Res.ok.injEq] at ht'
    exact ⟨_, ht'.symm⟩
  subst ht1
  have htime := fun m0 => read_time E m m0 hk tas ht
  -- grid type
  have htype : ∀ m0 : Msg F, readElem E m0 "typeOfGrid" [("name", m.gridType)] = .ok { m0 with gridType := m.gridType } := by
    intro m0
    unfold readElem
    simp only [String.reduceEq, if_true, if_false, List.foldl_cons, List.foldl_nil, typeAttr]
  -- ensemble
  have hens : ∀ (m0 : Msg F) (r' : List Event), m0.member = 0 → m0.total = 0 →
      readNodes E bad ix (some (m0, true)) (ensembleElems m.member m.total ++ r') = readNodes E bad ix (some ({ m0 with member := m.member, total := m.total }, true)) r' := by
    intro m0 r' hm0 ht0
    rcases hk.ensemble with ⟨c1, c2, c3⟩ | ⟨c1, c2⟩
    · unfold ensembleElems
      rw [if_pos c1, List.singleton_append, readNodes]
      have : readElem E m0 "ensemble" [("no", showInt m.member), ("total", showInt m.total)] = .ok { m0 with member := m.member, total := m.total } := by
        unfold readElem
        simp only [String.reduceEq, if_true, if_false, List.foldl_cons, List.foldl_nil, ensembleAttr, atol_show c2, atol_show c3]
      rw [this]
      rfl
    · unfold ensembleElems
      rw [if_neg (by omega), List.nil_append, c1, c2]
      congr 3
      cases m0
      simp only at hm0 ht0
      subst hm0 ht0
      rfl
  -- grid
  obtain ⟨gas, hg⟩ : ∃ gas, gridElem E m.grid = .elem "gridDefinition" gas := ⟨_, rfl⟩
  have hgrid := fun (m0 : Msg F) (he : m0.edition = some ed) => read_grid E m0 ed he m.grid (hk.grid ed e0) gas hg
  -- together
  have hgr : (false || (nm == "grib1") || (nm == "grib2")) = true := by
    rcases hnm with c | c <;> subst c <;> decide
  rw [hg]
  simp only [List.cons_append, List.nil_append, List.append_assoc]
  rw [readNodes, if_neg (by decide), if_pos rfl, hhead]
  simp only
  rw [readNodes, hpar]
  simp only
  rw [readNodes, hids2]
  simp only
  rw [show (false || ("parameter" == "grib1") || ("parameter" == "grib2")) = false by decide, hgr]
  rw [readNodes, if_neg (by decide), readNodes, hlevel]
  simp only [Bool.true_or]
  rw [hens _ _ rfl rfl, read_others E bad ix true _ m.others [] _ rfl (by simpa using hk.others.1) hk.others.2]
  rw [readNodes, htime]
  simp only [Bool.true_or]
  rw [readNodes, htype]
  simp only [Bool.true_or]
  rw [readNodes, hgrid]
  swap
  · exact e0
  simp only [Bool.true_or]
  rw [readNodes, if_pos rfl, if_neg (by simp [hk.url])]
  rfl

end Fimex.Grbml
