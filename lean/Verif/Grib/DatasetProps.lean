import Verif.Grib.DatasetLemmas

/-!
# C123: the dataset of GRIB messages
-/

namespace Fimex.GribData
open Fimex.Cdm Fimex.Grib Fimex.Tables
set_option linter.unusedSectionVars false

variable {G K V : Type} [DecidableEq G]

/-- **C123.** The dataset is consistent: names of dimensions and of variables are unique, every dimension in a shape exists, and attributes belong
to variables that exist. -/
theorem C123_consistent {same : G → G → Bool} {ms : List (Msg G)} {s : Grib.St G} (hl : loadAll same (St.init G) ms = .ok s) {E : Env G K V}
    {gs : List (G × String)} {ref : Option ℕ} {b : Built G K V} (hb : buildDataset E s gs ref = .ok b) :
    (b.cdm.dims.map (·.name)).Nodup ∧ (b.cdm.vars.map (·.name)).Nodup ∧ (∀ v ∈ b.cdm.vars, ∀ d ∈ v.shape, ∃ e ∈ b.cdm.dims, e.name = d) ∧
      ∀ n, n ≠ "_GLOBAL" → (∀ v ∈ b.cdm.vars, v.name ≠ n) → getAttributes b.cdm n = [] := by
  obtain ⟨_, _, _, _, _, _, _, _, _, _, _, w, g, _⟩ := build_ok hl hb
  have w := g.wf w
  refine ⟨w.dims, w.vars, ?_, ?_⟩
  · intro v hv d hd
    have := w.shapes v hv d hd
    unfold hasDimension at this
    rw [List.any_eq_true] at this
    obtain ⟨e, he, q⟩ := this
    exact ⟨e, he, by simpa using q⟩
  · intro n hn hv
    refine w.attrs n hn (hasVar_names.2 ?_)
    intro hm
    obtain ⟨v, h1, h2⟩ := List.mem_map.1 hm
    exact hv v h1 h2

/-- **C123.** Every variable of the messages is in the dataset, x and y first, then members if its messages have several, then levels, then
times if its messages have times; the dimensions have the lengths of the grid of its first message, of the largest ensemble, of its own levels
and of all times. It has the attributes of the configuration, its projection, and the coordinates if there are some. -/
theorem C123_variables {same : G → G → Bool} {ms : List (Msg G)} {s : Grib.St G} (hl : loadAll same (St.init G) ms = .ok s) {E : Env G K V}
    {gs : List (G × String)} {ref : Option ℕ} {b : Built G K V} (hb : buildDataset E s gs ref = .ok b) {m : Msg G}
    (hm : ∃ l r, ms = l ++ m :: r ∧ ∀ x ∈ l, x.name ≠ m.name) :
    ∃ v x y lev mapping coords, s.has m.name = some v ∧
      getVariable b.cdm m.name = .ok ⟨m.name, [x, y] ++ (if 1 < m.total then [b.ens] else []) ++ [lev] ++ (if m.time.isSome then [b.time] else []),
        ⟨E.type m.name, none⟩⟩ ∧
      getDimension b.cdm x = .ok ⟨x, E.nx m.grid, false⟩ ∧ getDimension b.cdm y = .ok ⟨y, E.ny m.grid, false⟩ ∧
      (1 < m.total → getDimension b.cdm b.ens = .ok ⟨b.ens, s.maxEns, false⟩) ∧ getDimension b.cdm lev = .ok ⟨lev, v.levels.length, false⟩ ∧
      getDimension b.cdm b.time = .ok ⟨b.time, s.times.length, true⟩ ∧
      (m.name ≠ "_GLOBAL" → getAttributes b.cdm m.name = E.attrs m.name ++ [⟨"grid_mapping", E.text mapping⟩] ++
        (if coords = "" then [] else [⟨"coordinates", E.text coords⟩])) ∧
      getVariable b.cdm mapping = .ok ⟨mapping, [], ⟨.nat, none⟩⟩ := by
  obtain ⟨c0, c1, c2, c3, i, _, _, _, c4, _, _, _, g, gr, base, vs⟩ := build_ok hl hb
  have H : Holds ms s := by
    rcases loadAll_cases same ms [] (St.init G) holds_init with ⟨_, s', e, h⟩ | ⟨_, e⟩
    · rw [e] at hl; injection hl with hl; subst hl; simpa using h
    · rw [e] at hl; cases hl
  obtain ⟨l, r, e, hf⟩ := hm
  have hmem : m ∈ ms := by rw [e]; simp
  have hfind : ms.find? (fun x => decide (x.name = m.name)) = some m := by
    rw [e, List.find?_append]
    have : l.find? (fun x => decide (x.name = m.name)) = none := by
      rw [List.find?_eq_none]
      intro x hx q
      exact hf x hx (by simpa using q)
    rw [this]
    simp
  have hname : m.name ∈ s.names := (H.names.2 m.name).2 ⟨m, hmem, rfl⟩
  obtain ⟨v, p, lev, h1, h2, h3, _, h5, h6⟩ := vs m.name hname
  obtain ⟨f1, f2, _, f4⟩ := H.first m.name v m h1 hfind
  obtain ⟨k, hk⟩ := List.getElem?_of_mem h2
  obtain ⟨_, _, hg⟩ := i.entries k _ hk
  have gm := (hg.grow (gr.trans g.grows)).mapping
  refine ⟨v, p.xDim, p.yDim, lev, p.gridMapping, p.coordinates, h1, ?_, ?_, ?_, ?_, base.levels _ _ _ h1 hname h3, base.time, h6, gm⟩
  · rw [h5]
    unfold shapeOf
    rw [f1, f2]
    simp
  · rw [← f4]; exact (base.grids _ h2).1
  · rw [← f4]; exact (base.grids _ h2).2
  · intro ht
    exact base.ens m.name v h1 (by rw [f2]; simpa using ht)

/-- The lengths of a variable for a table of messages, by `tableOf`. -/
def tableDims (s : Grib.St G) (v : VarHas G) : ℕ × ℕ × ℕ :=
  (if v.hasEns then s.maxEns else 1, v.levels.length, if v.hasTime then s.times.length else 1)

theorem readAt_ok {α : Type} {l : List α} {i : ℕ} {a : α} (h : l[i]? = some a) : readAt l i = .ok a := by
  unfold readAt
  rw [h]

/-- **C123.** The lengths that the table of messages gets by comparing the names in the shape with those of the dimensions of members and times
are the intended ones, if no vertical axis of the configuration has an empty name. So the table has a place for every message (C74). -/
theorem C123_lengths {same : G → G → Bool} {ms : List (Msg G)} {s : Grib.St G} (hl : loadAll same (St.init G) ms = .ok s) {E : Env G K V}
    {gs : List (G × String)} {ref : Option ℕ} {b : Built G K V} (hb : buildDataset E s gs ref = .ok b)
    (hid : ∀ t, ∀ A ∈ E.vertical t, A.id ≠ "") {n : String} {v : VarHas G} (hn : n ∈ s.names) (hv : s.has n = some v) :
    lengths b.cdm b.ens b.time n = .ok (E.nx v.grid, E.ny v.grid, tableDims s v) := by
  obtain ⟨c0, c1, c2, c3, i, et, _, ee, c4, ty, _, _, g, gr, base, vs⟩ := build_ok hl hb
  have H : Holds ms s := by
    rcases loadAll_cases same ms [] (St.init G) holds_init with ⟨_, s', e, h⟩ | ⟨_, e⟩
    · rw [e] at hl; injection hl with hl; subst hl; simpa using h
    · rw [e] at hl; cases hl
  obtain ⟨v', p, lev, h1, h2, h3, _, h5, _⟩ := vs n hn
  rw [hv] at h1
  injection h1 with h1
  subst h1
  have dx := (base.grids _ h2).1
  have dy := (base.grids _ h2).2
  have dl := base.levels n v lev hv hn h3
  obtain ⟨_, u1, s1, u2⟩ := levelName_spec ty h3 (buildLevels_spec s.has s.names _ _ (sorted_nodup H.names.1) n v hn hv)
  have hne : lev ≠ b.ens := by
    obtain ⟨_, q⟩ := addEnsembles_ok ee
    rcases q with ⟨_, q⟩ | ⟨_, _, q, _⟩
    · injection q with _ q
      rw [q, u2]
      intro e
      have h0 : (levelId v.levelType (E.vertical v.levelType).head?).toList ++ s1.toList = [] := by
        rw [← String.toList_append, e]; rfl
      have h0 : (levelId v.levelType (E.vertical v.levelType).head?) = "" := by
        apply String.toList_inj.1
        rw [(List.append_eq_nil_iff.1 h0).1]; rfl
      unfold levelId at h0
      cases hh : (E.vertical v.levelType).head? with
      | none =>
        rw [hh] at h0
        have := congrArg String.toList h0
        simp [String.toList_append] at this
      | some A =>
        rw [hh] at h0
        exact hid v.levelType A (List.mem_of_head? hh) h0
    · intro e
      rw [e, hasDim_iff.2 ⟨_, q⟩] at u1
      cases u1
  have hx : (shapeOf p v b.ens lev b.time)[0]? = some p.xDim := by simp [shapeOf]
  have hy : (shapeOf p v b.ens lev b.time)[1]? = some p.yDim := by simp [shapeOf]
  unfold lengths tableDims
  rw [h5]
  simp only [Res.bind]
  rw [readAt_ok hx]
  simp only
  rw [dx]
  simp only
  rw [readAt_ok hy]
  simp only
  rw [dy]
  simp only
  cases hE : v.hasEns with
  | true =>
    have h2' : (shapeOf p v b.ens lev b.time)[2]? = some b.ens := by simp [shapeOf, hE]
    have h3' : (shapeOf p v b.ens lev b.time)[3]? = some lev := by simp [shapeOf, hE]
    rw [readAt_ok h2']
    simp only [if_true]
    rw [base.ens n v hv hE]
    simp only
    rw [readAt_ok h3']
    simp only
    rw [dl]
    simp only
    cases hT : v.hasTime with
    | true =>
      have h4 : (shapeOf p v b.ens lev b.time)[4]? = some b.time := by simp [shapeOf, hE, hT]
      rw [if_pos h4, base.time]
      rfl
    | false =>
      have h4 : ¬ (shapeOf p v b.ens lev b.time)[4]? = some b.time := by simp [shapeOf, hE, hT]
      rw [if_neg h4]
      rfl
  | false =>
    have h2' : (shapeOf p v b.ens lev b.time)[2]? = some lev := by simp [shapeOf, hE]
    rw [readAt_ok h2']
    simp only
    rw [if_neg hne, dl]
    simp only
    cases hT : v.hasTime with
    | true =>
      have h4 : (shapeOf p v b.ens lev b.time)[3]? = some b.time := by simp [shapeOf, hE, hT]
      rw [if_pos h4, base.time]
      rfl
    | false =>
      have h4 : ¬ (shapeOf p v b.ens lev b.time)[3]? = some b.time := by simp [shapeOf, hE, hT]
      rw [if_neg h4]
      rfl

/-- **C123.** The time axis: its dimension is unlimited, its values are those of the valid times of the messages in ascending order, without
repetition, in the units of the configuration, or seconds since 1970. The reference time, if there is one, is in seconds since 1970, whatever
the units of the axis. -/
theorem C123_time {same : G → G → Bool} {ms : List (Msg G)} {s : Grib.St G} (hl : loadAll same (St.init G) ms = .ok s) {E : Env G K V}
    {gs : List (G × String)} {ref : Option ℕ} {b : Built G K V} (hb : buildDataset E s gs ref = .ok b) :
    ∃ (T : Axis V) (times : List ℕ) (f : ℕ → K) (u : String), E.time = [T] ∧ b.time = T.name ∧ times.Pairwise (· < ·) ∧ (∀ t, t ∈ times ↔ ∃ m ∈ ms, m.time = some t) ∧
      getDimension b.cdm T.name = .ok ⟨T.name, times.length, true⟩ ∧ E.unit u = .ok f ∧
      (T.name ≠ "_GLOBAL" → (∀ a, T.attrs.find? (fun a => a.name == "units") = some a → u = E.asText a.value) ∧
        (T.attrs.find? (fun a => a.name == "units") = none → u = E.asText (E.text "seconds since 1970-01-01 00:00:00 +00:00"))) ∧
      getVariable b.cdm T.name = .ok ⟨T.name, [T.name], ⟨T.type, some (create T.type (times.map f))⟩⟩ ∧
      ∀ r, ref = some r →
        getVariable b.cdm "forecast_reference_time" = .ok ⟨"forecast_reference_time", [], ⟨T.type, some (.nums T.type [E.epoch r])⟩⟩ := by
  obtain ⟨c0, c1, c2, c3, i, et, g2, ee, c4, ty, _, _, g, gr, base, vs⟩ := build_ok hl hb
  have H : Holds ms s := by
    rcases loadAll_cases same ms [] (St.init G) holds_init with ⟨_, s', e, h⟩ | ⟨_, e⟩
    · rw [e] at hl; injection hl with hl; subst hl; simpa using h
    · rw [e] at hl; cases hl
  obtain ⟨g1, _, t1, T, t2, t3, ⟨f, u, hu, t4, t5⟩, t6⟩ := addTime_ok et
  have gg : Grows c1 b.cdm := (((g2.trans (addEnsembles_ok ee).1).trans ty.good).trans g).grows
  refine ⟨T, s.times, f, u, t2, t3, H.times.1, H.times.2, ?_, t4, ?_, gg.var t5, fun r hr => gg.var (t6 r hr)⟩
  · have := gg.dim t1
    rw [show (c1, b.time).2 = T.name from t3] at this
    exact this
  · intro hg
    have := hu i.wf hg
    unfold unitsOf at this
    constructor
    · intro a ha
      rw [ha] at this
      exact this
    · intro ha
      rw [ha] at this
      exact this

/-- **C123.** Members: with more than one there is a dimension and a variable with the numbers from 0, and with as many names as members their
names, each in its row, filled with zeros. Otherwise there is none. -/
theorem C123_members {same : G → G → Bool} {ms : List (Msg G)} {s : Grib.St G} (hl : loadAll same (St.init G) ms = .ok s) {E : Env G K V}
    {gs : List (G × String)} {ref : Option ℕ} {b : Built G K V} (hb : buildDataset E s gs ref = .ok b) :
    ((∀ m ∈ ms, m.total ≤ 1) ↔ b.ens = "") ∧
      (b.ens ≠ "" → b.ens = "ensemble_member" ∧ (∀ m ∈ ms, 1 < m.total → m.total ≤ s.maxEns ∧ m.pert < s.maxEns) ∧
        getDimension b.cdm "ensemble_member" = .ok ⟨"ensemble_member", s.maxEns, false⟩ ∧
        getVariable b.cdm "ensemble_member" =
          .ok ⟨"ensemble_member", ["ensemble_member"], ⟨.short, some (.nums .short ((List.range s.maxEns).map fun i => E.cast i))⟩⟩ ∧
        (E.members.length = s.maxEns → ∃ len text, getDimension b.cdm "ensemble_member_strlen" = .ok ⟨"ensemble_member_strlen", len, false⟩ ∧
          getVariable b.cdm "ensemble_member_names" =
            .ok ⟨"ensemble_member_names", ["ensemble_member_strlen", "ensemble_member"], ⟨.string, some (.chars text)⟩⟩ ∧
          text.length = len * s.maxEns ∧ ∀ (j : ℕ) (id : List Char), E.members[j]? = some id →
            (text.drop (j * len)).take len = id ++ List.replicate (len - id.length) (Char.ofNat 0) ∧ id.length ≤ len)) := by
  obtain ⟨c0, c1, c2, c3, i, et, g2, ee, c4, ty, _, _, g, gr, base, vs⟩ := build_ok hl hb
  have H : Holds ms s := by
    rcases loadAll_cases same ms [] (St.init G) holds_init with ⟨_, s', e, h⟩ | ⟨_, e⟩
    · rw [e] at hl; injection hl with hl; subst hl; simpa using h
    · rw [e] at hl; cases hl
  have gg : Grows c3 b.cdm := (ty.good.trans g).grows
  obtain ⟨_, q⟩ := addEnsembles_ok ee
  rcases q with ⟨q1, q2⟩ | ⟨q1, q2, q3, q4, q5⟩
  · injection q2 with _ q2
    refine ⟨⟨fun _ => q2, fun _ m hm => ?_⟩, fun h => absurd q2 h⟩
    by_contra hc
    have := (H.ens m hm (by omega)).1
    omega
  · have q2 : b.ens = "ensemble_member" := q2
    refine ⟨⟨fun h => ?_, fun h => ?_⟩, fun _ => ⟨q2, fun m hm ht => H.ens m hm ht, ?_, gg.var q4, ?_⟩⟩
    · exfalso
      rcases H.ensLeast with h0 | ⟨m, hm, ht, _⟩
      · omega
      · have := h m hm; omega
    · rw [q2] at h; exact absurd h (by decide)
    · have := gg.dim q3
      rw [show (c3, b.ens).2 = "ensemble_member" from q2] at this
      exact this
    · intro hlen
      obtain ⟨r1, r2⟩ := q5 hlen
      have hle := (le_maxLen E.members 0).2
      refine ⟨maxLen E.members, nameText E.members, gg.dim r1, gg.var r2, ?_, ?_⟩
      · rw [nameText_eq, ← hlen]
        have : ∀ l : List (List Char), (∀ id ∈ l, id.length ≤ maxLen E.members) → (l.flatMap (padded (maxLen E.members))).length = maxLen E.members * l.length := by
          intro l
          induction l with
          | nil => simp
          | cons a l ih =>
            intro h
            have := h a (by simp)
            rw [List.flatMap_cons, List.length_append, ih fun x hx => h x (by simp [hx])]
            simp [padded, Nat.mul_add]
            omega
        exact this _ hle
      · intro j id hj
        rw [nameText_eq]
        exact ⟨flatMap_slice _ _ j id hle hj, hle id (List.mem_of_getElem? hj)⟩

/-- **C123.** Levels: the names of dimensions of all types and positions are distinct, every position has a dimension of the length of its values and
an axis variable; the values are those of the messages, unless the configuration has further variables for the axis. The name begins with the
id of the axis. -/
theorem C123_levels {same : G → G → Bool} {ms : List (Msg G)} {s : Grib.St G} (hl : loadAll same (St.init G) ms = .ok s) {E : Env G K V}
    {gs : List (G × String)} {ref : Option ℕ} {b : Built G K V} (hb : buildDataset E s gs ref = .ok b) :
    (b.levels.flatMap (·.2)).Nodup ∧ (b.levels.map (·.1)).Nodup ∧ (∀ t, t ∈ b.levels.map (·.1) ↔ ∃ m ∈ ms, m.levelType = t) ∧
      ∀ p ∈ b.levels, (E.vertical p.1).length ≤ 1 ∧
        p.2.length = ((buildLevels s.has s.names (fun _ => []) (fun _ => 0)).1 p.1).length ∧
        ∀ (k : ℕ) (n : String) (l : List ℤ), p.2[k]? = some n → ((buildLevels s.has s.names (fun _ => []) (fun _ => 0)).1 p.1)[k]? = some l →
          getDimension b.cdm n = .ok ⟨n, l.length, false⟩ ∧
          (E.vertical p.1 = [] → (∃ x, n = "grib" ++ toString p.1.1 ++ "_vLevel" ++ toString p.1.2 ++ x) ∧
            getVariable b.cdm n = .ok ⟨n, [n], ⟨.float, some (.nums .float (l.map E.cast))⟩⟩) ∧
          ∀ A, E.vertical p.1 = [A] → (∃ x, n = A.id ++ x) ∧ ∃ d, getVariable b.cdm n = .ok ⟨n, [n], ⟨A.type, some d⟩⟩ ∧ d.type = A.type ∧
            (A.additional = [] → d = .nums A.type (l.map E.cast)) := by
  obtain ⟨c0, c1, c2, c3, i, et, g2, ee, c4, ty, mm, _, g, gr, base, vs⟩ := build_ok hl hb
  have H : Holds ms s := by
    rcases loadAll_cases same ms [] (St.init G) holds_init with ⟨_, s', e, h⟩ | ⟨_, e⟩
    · rw [e] at hl; injection hl with hl; subst hl; simpa using h
    · rw [e] at hl; cases hl
  refine ⟨ty.nodup, by rw [mm]; exact nodup_levelTypes s, ?_, ?_⟩
  · intro t
    rw [mm, mem_levelTypes]
    constructor
    · rintro ⟨n, hn, v, hv, e⟩
      cases hf : ms.find? fun m => decide (m.name = n) with
      | none => rw [(H.unknown n).2 hf] at hv; cases hv
      | some f => exact ⟨f, List.mem_of_find?_eq_some hf, by rw [← e]; exact (H.first n v f hv hf).2.2.1.symm⟩
    · rintro ⟨m, hm, e⟩
      have hn : m.name ∈ s.names := (H.names.2 m.name).2 ⟨m, hm, rfl⟩
      cases hv : s.has m.name with
      | none =>
        have := (H.unknown m.name).1 hv
        rw [List.find?_eq_none] at this
        exact absurd (by simp) (this m hm)
      | some v =>
        refine ⟨m.name, hn, v, hv, ?_⟩
        rcases loadAll_cases same ms [] (St.init G) holds_init with ⟨ha, s', e', h'⟩ | ⟨_, e'⟩
        · obtain ⟨a, r, hsplit⟩ := List.append_of_mem hm
          cases hf : ms.find? fun x => decide (x.name = m.name) with
          | none => rw [(H.unknown m.name).2 hf] at hv; cases hv
          | some f =>
            have hk := (H.first m.name v f hv hf).2.2.1
            have hac := ha a m r hsplit
            rw [hk, ← e]
            rw [hsplit, List.find?_append] at hf
            cases hfa : a.find? fun x => decide (x.name = m.name) with
            | none =>
              rw [hfa] at hf
              simp at hf
              rw [hf]
            | some f' =>
              rw [hfa] at hf
              simp at hf
              subst hf
              have := hac f' (by simpa using hfa)
              exact this.level.symm
        · rw [e'] at hl; cases hl
  · intro p hp
    obtain ⟨b1, b2, b3⟩ := ty.entries p hp
    refine ⟨b1, b2, ?_⟩
    intro k n l hk hkl
    obtain ⟨q1, _, q3⟩ := b3 k n l hk hkl
    have q1 := q1.grow g.grows
    refine ⟨q1.dim, ?_, ?_⟩
    · intro e
      obtain ⟨d, d1, d2, d3, _⟩ := q1.var
      rw [e] at q3 d1 d3
      refine ⟨q3, ?_⟩
      rw [d1, d3 (by simp)]
      rfl
    · intro A e
      obtain ⟨d, d1, d2, d3, _⟩ := q1.var
      rw [e] at q3 d1 d2 d3
      refine ⟨q3, d, d1, d2, ?_⟩
      intro ha
      have h := d3 (by rintro B ⟨⟩; exact ha)
      rw [h] at d2 ⊢
      have hc : ¬ (A.type = .nat ∨ A.type = .strings) := by
        intro hc
        have hq : create A.type (l.map E.cast) = .nums .char [] := by unfold create; rw [if_pos hc]
        have d2 : (create A.type (l.map E.cast)).type = A.type := d2
        rw [hq] at d2
        rcases hc with hc | hc <;> rw [hc] at d2 <;> cases d2
      show create A.type (l.map E.cast) = _
      unfold create
      rw [if_neg hc]

/-- **C123.** Grids: every grid of the messages has its own x axis, y axis and projection variable, the first with the names of the
configuration, the `k`-th later one with the number `k` at the end of all names. Longitude and latitude are made if neither the x axis has
the name of the longitude nor the y axis that of the latitude. -/
theorem C123_grids {same : G → G → Bool} {ms : List (Msg G)} {s : Grib.St G} (hl : loadAll same (St.init G) ms = .ok s) {E : Env G K V}
    {gs : List (G × String)} {ref : Option ℕ} {b : Built G K V} (hb : buildDataset E s gs ref = .ok b) :
    (b.projections.map (·.1)).Nodup ∧ (∀ g, g ∈ b.projections.map (·.1) ↔ g ∈ gs.map (·.1)) ∧
      ∀ (k : ℕ) (g : G) (p : PInfo), b.projections[k]? = some (g, p) → ∃ T X Y lon lat, ∃ e : String, e = (if k = 0 then "" else toString k) ∧ (g, T) ∈ gs ∧
        E.spatial T false = [X] ∧ E.spatial T true = [Y] ∧ E.lon = [lon] ∧ E.lat = [lat] ∧
        p.xDim = X.name ++ e ∧ p.yDim = Y.name ++ e ∧ p.gridMapping = "projection_" ++ T ++ e ∧
        getDimension b.cdm p.xDim = .ok ⟨p.xDim, E.nx g, false⟩ ∧ getDimension b.cdm p.yDim = .ok ⟨p.yDim, E.ny g, false⟩ ∧
        getVariable b.cdm p.xDim = .ok ⟨p.xDim, [p.xDim], ⟨X.type, some (create X.type (E.xs g))⟩⟩ ∧
        getVariable b.cdm p.yDim = .ok ⟨p.yDim, [p.yDim], ⟨Y.type, some (create Y.type (E.ys g))⟩⟩ ∧
        getVariable b.cdm p.gridMapping = .ok ⟨p.gridMapping, [], ⟨.nat, none⟩⟩ ∧
        (p.coordinates = "" ↔ p.xDim = lon ++ e ∨ p.yDim = lat ++ e) ∧
        (p.coordinates ≠ "" → p.coordinates = lon ++ e ++ " " ++ (lat ++ e) ∧ ∃ ll, E.lonLat g = .ok ll ∧
          getVariable b.cdm (lon ++ e) = .ok ⟨lon ++ e, [p.xDim, p.yDim], ⟨.double, some (.nums .double ll.1)⟩⟩ ∧
          getVariable b.cdm (lat ++ e) = .ok ⟨lat ++ e, [p.xDim, p.yDim], ⟨.double, some (.nums .double ll.2)⟩⟩) := by
  obtain ⟨c0, c1, c2, c3, i, et, g2, ee, c4, ty, mm, _, gd, gr, base, vs⟩ := build_ok hl hb
  refine ⟨i.nodup, i.seen, ?_⟩
  intro k g p hk
  obtain ⟨T, hT, ok⟩ := i.entries k (g, p) hk
  obtain ⟨⟨X, a1, a2, a3, a4, Y, b1, b2, b3⟩, dx, dy, m, lon, lat, l1, l2, l3⟩ := ok.grow (gr.trans gd.grows)
  have he : appendix k = (if k = 0 then "" else toString k) := by
    unfold appendix
    by_cases h0 : k = 0
    · simp [h0]
    · rw [if_pos (by omega), if_neg h0]
  refine ⟨T, X, Y, lon, lat, appendix k, he, hT, a1, b1, l1, l2, a2, b2, a4, dx, dy, a3, b3, m, ?_, ?_⟩
  · rcases l3 with ⟨q1, q2, q3, _⟩ | ⟨q1, q2⟩
    · refine ⟨fun e => ?_, fun e => ?_⟩
      · rw [q3] at e
        have := congrArg String.toList e
        simp [String.toList_append] at this
      · rcases e with e | e
        · exact absurd e q1
        · exact absurd e q2
    · exact ⟨fun _ => q1, fun _ => q2⟩
  · intro hne
    rcases l3 with ⟨_, _, q3, q4⟩ | ⟨_, q2⟩
    · exact ⟨q3, q4⟩
    · exact absurd q2 hne

/-! ## What can go wrong -/

/-- **C123.** An axis with further variables has its values computed as `double`; an axis of another type is then refused, and no dataset with such
levels is made. (All axes of this kind in the configurations of the project are `double`.) -/
theorem C123_level_type {same : G → G → Bool} {ms : List (Msg G)} {s : Grib.St G} (hl : loadAll same (St.init G) ms = .ok s) {E : Env G K V}
    {gs : List (G × String)} {ref : Option ℕ} {m : Msg G} (hm : m ∈ ms) {A : Vertical K V} (hA : E.vertical m.levelType = [A])
    (ha : A.additional ≠ []) (ht : A.type ≠ .double) (hv : ∀ c d p x, ∃ vs, A.values c d p x = .ok vs) (b : Built G K V) :
    buildDataset E s gs ref ≠ .ok b := by
  intro hb
  have hlev := (C123_levels hl hb).2.2.1 m.levelType
  obtain ⟨c0, c1, c2, c3, i, et, g2, ee, c4, ty, mm, _, g, gr, base, vs⟩ := build_ok hl hb
  have H : Holds ms s := by
    rcases loadAll_cases same ms [] (St.init G) holds_init with ⟨_, s', e, h⟩ | ⟨_, e⟩
    · rw [e] at hl; injection hl with hl; subst hl; simpa using h
    · rw [e] at hl; cases hl
  have h1 := hlev.2 ⟨m, hm, rfl⟩
  rw [mm, mem_levelTypes] at h1
  obtain ⟨n, hn, v, hv', ev⟩ := h1
  obtain ⟨v2, p, l, h1, h2, h3, _⟩ := vs n hn
  rw [hv'] at h1
  injection h1 with h1
  subst h1
  obtain ⟨q, _⟩ := levelName_spec ty h3 (buildLevels_spec s.has s.names _ _ (sorted_nodup H.names.1) n v hn hv')
  obtain ⟨d, d1, d2, d3, d4, d5⟩ := q.var
  rw [ev, hA] at d2 d5
  obtain ⟨ys, e⟩ := d5 A rfl ha hv
  rw [e] at d2
  exact ht d2.symm

/-- **C123.** A further variable of an axis that cannot be made is left out with a warning only if it has no attributes; otherwise adding its attributes
fails, and with it the reader. -/
theorem C123_further_variable_fails {c : DS K V} {a : Aux K V} {pv : List K} {level ext : String} {d : Data K} (hv : a.values c d pv ext = .throws) :
    (a.attrs = [] → addAux pv level ext d c a = .ok c) ∧
      (a.attrs ≠ [] → a.name ++ ext ≠ "_GLOBAL" → hasVariable c (a.name ++ ext) = false → addAux pv level ext d c a = .throws) := by
  have h : addAux pv level ext d c a = newAttrs c (a.name ++ ext) a.attrs := by
    unfold addAux
    rw [hv]
    rfl
  rw [h]
  constructor
  · intro e
    rw [e]
    rfl
  · intro e hg hn
    obtain ⟨x, l, e⟩ := List.exists_cons_of_ne_nil e
    rw [e]
    unfold newAttrs ran addAttributes addAttribute
    have h2 : hasVariable { c with coordsInitialized := false } (a.name ++ ext) = false := hn
    simp only [h2]
    rw [if_pos ⟨hg, rfl⟩]
    rfl

/-- **C123.** If the name of a further variable is taken, its attributes go to the variable that has the name. -/
theorem C123_further_variable_taken {c : DS K V} {a : Aux K V} {pv : List K} {level ext : String} {d : Data K} {vs : List K}
    (hv : a.values c d pv ext = .ok vs) (hn : hasVariable c (a.name ++ ext) = true) {c' : DS K V} (h : addAux pv level ext d c a = .ok c') :
    c'.vars = c.vars ∧ getAttributes c' (a.name ++ ext) = getAttributes c (a.name ++ ext) ++ a.attrs := by
  have : addAux pv level ext d c a = newAttrs c (a.name ++ ext) a.attrs := by
    unfold addAux
    rw [hv]
    simp only [Res.bind]
    cases hq : newVar c (a.name ++ ext) a.type (if a.axis ≠ "" ∧ a.axis ≠ "1" then [level] else []) (some (create a.type vs)) with
    | ok c1 =>
      have := (newVar_ok hq).1
      rw [hn] at this
      cases this
    | throws => rfl
    | ub =>
      exfalso
      unfold newVar at hq
      dsimp only at hq
      split at hq
      · unfold ran addVariable at hq
        have h2 : hasVariable { c with coordsInitialized := false } (a.name ++ ext) = true := hn
        simp [h2, Res.bind] at hq
      · cases hq
  rw [this] at h
  obtain ⟨a1, _, a3, _⟩ := newAttrs_ok h
  exact ⟨a1, a3⟩

/-! ## Examples -/

/-- A configuration: pressure levels, and an axis with the given id for the type 103; grids are their sizes. -/
def exEnv (id : String) (t : DataType) (aux : List (Aux ℤ String)) : Env (ℕ × ℕ) ℤ String where
  time := [⟨"time", .double, [⟨"units", "hours"⟩]⟩]
  globals := [[⟨"Conventions", "CF-1.0"⟩]]
  spatial := fun _ y => [if y then ⟨"y", .float, []⟩ else ⟨"x", .float, []⟩]
  lon := ["longitude"]
  lat := ["latitude"]
  vertical := fun t' => if t' = (2, 100) then [⟨"pressure", .float, fun _ => [⟨"units", "hPa"⟩], [], [], fun _ _ _ _ => .throws⟩]
    else if t' = (2, 103) then [⟨id, t, fun _ => [], [], aux, fun _ _ _ _ => .ok [7]⟩] else []
  members := ["a".toList, "bcd".toList]
  text := fun x => x
  flags := fun n => toString n
  asText := fun x => x
  history := "now"
  cast := fun x => x
  xs := fun g => (List.range g.1).map fun i => (i : ℤ)
  ys := fun g => (List.range g.2).map fun i => (i : ℤ)
  nx := fun g => g.1
  ny := fun g => g.2
  projection := fun _ => .ok [⟨"grid_mapping_name", "polar_stereographic"⟩]
  lonLat := fun g => .ok (List.replicate (g.1 * g.2) 10, List.replicate (g.1 * g.2) 60)
  unit := fun u => if u = "hours" then .ok fun t => (t : ℤ) / 3600 else .throws
  epoch := fun t => t
  pv := fun _ _ => []
  type := fun _ => .float
  attrs := fun n => [⟨"standard_name", n⟩]

/-- Messages: temperature on two pressure levels with two members, wind at one level, topography without time. -/
def exMs : List (Msg (ℕ × ℕ)) :=
  [⟨"t", some 7200, 2, 0, (2, 100), 500, (2, 3), "f", 0, 10⟩, ⟨"t", some 3600, 2, 1, (2, 100), 850, (2, 3), "f", 10, 10⟩,
    ⟨"wind", some 3600, 0, 0, (2, 100), 500, (2, 3), "f", 20, 10⟩, ⟨"topo", none, 0, 0, (2, 1), 0, (4, 1), "f", 30, 10⟩]

def exGrids : List ((ℕ × ℕ) × String) := [((2, 3), "polar_stereographic"), ((2, 3), "polar_stereographic"), ((4, 1), "regular_ll")]

def exSt (ms : List (Msg (ℕ × ℕ))) : Res (Grib.St (ℕ × ℕ)) := loadAll (fun a b => a == b) (St.init (ℕ × ℕ)) ms

/-- What is read of a dataset in the examples. -/
def exDims (E : Env (ℕ × ℕ) ℤ String) (ms : List (Msg (ℕ × ℕ))) : Res (List Dim) :=
  (exSt ms).bind fun s => (buildDataset E s exGrids (some 3600)).bind fun b => .ok b.cdm.dims

def exVars (E : Env (ℕ × ℕ) ℤ String) (ms : List (Msg (ℕ × ℕ))) : Res (List (String × List String)) :=
  (exSt ms).bind fun s => (buildDataset E s exGrids (some 3600)).bind fun b => .ok (b.cdm.vars.map fun v => (v.name, v.shape))

def exLengths (E : Env (ℕ × ℕ) ℤ String) (ms : List (Msg (ℕ × ℕ))) (n : String) : Res (ℕ × ℕ × ℕ × ℕ × ℕ) :=
  (exSt ms).bind fun s => (buildDataset E s exGrids (some 3600)).bind fun b => lengths b.cdm b.ens b.time n

example : exDims (exEnv "height" .float []) exMs = .ok [⟨"x", 2, false⟩, ⟨"y", 3, false⟩, ⟨"x1", 4, false⟩, ⟨"y1", 1, false⟩, ⟨"time", 2, true⟩,
    ⟨"ensemble_member", 2, false⟩, ⟨"ensemble_member_strlen", 3, false⟩, ⟨"grib2_vLevel1", 1, false⟩, ⟨"pressure0", 2, false⟩, ⟨"pressure1", 1, false⟩] := by
  decide +kernel

example : exVars (exEnv "height" .float []) exMs = .ok [("projection_polar_stereographic", []), ("x", ["x"]), ("y", ["y"]), ("longitude", ["x", "y"]),
    ("latitude", ["x", "y"]), ("projection_regular_ll1", []), ("x1", ["x1"]), ("y1", ["y1"]), ("longitude1", ["x1", "y1"]), ("latitude1", ["x1", "y1"]),
    ("time", ["time"]), ("forecast_reference_time", []), ("ensemble_member", ["ensemble_member"]),
    ("ensemble_member_names", ["ensemble_member_strlen", "ensemble_member"]), ("grib2_vLevel1", ["grib2_vLevel1"]), ("pressure0", ["pressure0"]),
    ("pressure1", ["pressure1"]), ("t", ["x", "y", "ensemble_member", "pressure0", "time"]), ("topo", ["x1", "y1", "grib2_vLevel1"]),
    ("wind", ["x", "y", "pressure1", "time"])] := by
  decide +kernel

example : exLengths (exEnv "height" .float []) exMs "t" = .ok (2, 3, 2, 2, 2) ∧ exLengths (exEnv "height" .float []) exMs "wind" = .ok (2, 3, 1, 1, 2) ∧
    exLengths (exEnv "height" .float []) exMs "topo" = .ok (4, 1, 1, 1, 1) := by
  decide +kernel

/-- **C123.** With an empty name of a vertical axis and without members, the levels are taken for members and the times for levels; without times
the next name in the shape is read although there is none. -/
theorem C123_empty_id :
    (∃ ms : List (Msg (ℕ × ℕ)), exDims (exEnv "" .float []) ms = .ok [⟨"x", 2, false⟩, ⟨"y", 3, false⟩, ⟨"x1", 4, false⟩, ⟨"y1", 1, false⟩,
        ⟨"time", 2, true⟩, ⟨"", 3, false⟩] ∧ exLengths (exEnv "" .float []) ms "u" = .ok (2, 3, 3, 2, 1)) ∧
      ∃ ms : List (Msg (ℕ × ℕ)), exLengths (exEnv "" .float []) ms "u" = .ub := by
  refine ⟨⟨[⟨"u", some 7200, 0, 0, (2, 103), 2, (2, 3), "f", 0, 10⟩, ⟨"u", some 3600, 0, 0, (2, 103), 10, (2, 3), "f", 10, 10⟩,
    ⟨"u", some 3600, 0, 0, (2, 103), 80, (2, 3), "f", 20, 10⟩], ?_⟩, [⟨"u", none, 0, 0, (2, 103), 2, (2, 3), "f", 0, 10⟩], ?_⟩
  · decide +kernel
  · decide +kernel

/-- A further variable, with and without attributes, whose values are there or not. -/
def exAux (ok : Bool) (attrs : List (Attr String)) : Aux ℤ String := ⟨"ap", .double, "k", attrs, fun _ _ _ _ => if ok then .ok [5] else .throws⟩

def exHyb : List (Msg (ℕ × ℕ)) := [⟨"u", none, 0, 0, (2, 103), 2, (2, 3), "f", 0, 10⟩]

example : exVars (exEnv "hybrid" .double [exAux true [⟨"units", "Pa"⟩]]) exHyb = .ok [("projection_polar_stereographic", []), ("x", ["x"]), ("y", ["y"]),
    ("longitude", ["x", "y"]), ("latitude", ["x", "y"]), ("projection_regular_ll1", []), ("x1", ["x1"]), ("y1", ["y1"]), ("longitude1", ["x1", "y1"]),
    ("latitude1", ["x1", "y1"]), ("time", ["time"]), ("forecast_reference_time", []), ("hybrid", ["hybrid"]), ("ap", ["hybrid"]),
    ("u", ["x", "y", "hybrid"])] := by
  decide +kernel

example : exDims (exEnv "hybrid" .float [exAux true []]) exHyb = .throws ∧ exDims (exEnv "hybrid" .double [exAux false [⟨"units", "Pa"⟩]]) exHyb = .throws ∧
    (exDims (exEnv "hybrid" .double [exAux false []]) exHyb ≠ .throws) := by
  decide +kernel

end Fimex.GribData
