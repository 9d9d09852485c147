/- C100 continued: dimensions of the new dataset, data that are handed through, global attributes, the name of the projection, the whole chain from
the coordinate systems, and cases. -/
import Verif.CoordSys.ChangeProps

namespace Fimex.Change
open Cdm CoordSys Cf

variable {V CS Pr T α O P : Type}

/-! ## Specification -/

/-- A place where a text names a projection. -/
structure NamesProj (s pre w post : List Char) : Prop where
  text : s = pre ++ "+proj=".toList ++ w ++ post
  word : w ≠ [] ∧ ∀ ch ∈ w, isSpace ch = false
  stop : ∀ ch r, post = ch :: r → isSpace ch = true

/-- What is assumed of a dataset whose grid is to be changed. -/
structure Plain (c : CDM P V CS) : Prop where
  vars : (c.vars.map fun v : Var P => v.name).Nodup
  dims : (c.dims.map fun d : Dim => d.name).Nodup
  owned : ∀ n, c.attrs n ≠ none → n = globalNS ∨ ∃ v ∈ c.vars, v.name = n
  global : ∀ v ∈ c.vars, v.name ≠ globalNS

/-- What is assumed of its grids: no dimension in common, and names that can be told from others. -/
structure Apart (mapped : List (String × String)) (x y : String) (later : List (String × String)) : Prop where
  apart : (names2 ((x, y) :: later)).Nodup
  named : x ≠ "" ∧ x ≠ globalNS ∧ y ≠ globalNS
  axes : ∀ k, (x, k) ∉ mapped ∧ (y, k) ∉ mapped
  free : ∀ r, x ≠ "projection_" ++ r ∧ y ≠ "projection_" ++ r

/-- A dataset without some variables. -/
structure Less (ns : List String) (c c1 : CDM P V CS) : Prop where
  vars : c1.vars = c.vars.filter fun v => !ns.contains v.name
  dims : c1.dims = c.dims
  attrs : ∀ n, n ∉ ns → getAttributes c1 n = getAttributes c n

/-! ## Dimensions -/

section
variable [DecidableEq T] {E : Ext V Pr T α} {g : Target T α} {ss : List (System Pr)} {d0 d' : CDM (Pay T α O) V CS} {x y np : String}
  {later : List (String × String)} {m0 m' : List (String × String)} {extra : Option Extra}

theorem newLength_name (x y : String) (nx ny : Nat) (d : Dim) : (newLength x y nx ny d).name = d.name := by
  unfold newLength
  split
  · rfl
  · split <;> rfl

theorem newDim_cases (x y : String) (later : List (String × String)) (d : String) :
    (d ∈ names2 later ∧ (newDim x y later d = x ∨ newDim x y later d = y)) ∨ (d ∉ names2 later ∧ newDim x y later d = d) := by
  unfold newDim
  by_cases h1 : (later.any fun p => p.1 == d) = true
  · rw [if_pos h1]
    obtain ⟨p, hp, e⟩ := List.any_eq_true.1 h1
    exact .inl ⟨mem_names2.2 ⟨p, hp, .inl (by simpa using (Eq.symm (by simpa using e : p.1 = d)))⟩, .inl rfl⟩
  · rw [if_neg h1]
    by_cases h2 : (later.any fun p => p.2 == d) = true
    · rw [if_pos h2]
      obtain ⟨p, hp, e⟩ := List.any_eq_true.1 h2
      exact .inl ⟨mem_names2.2 ⟨p, hp, .inr (by simpa using (Eq.symm (by simpa using e : p.2 = d)))⟩, .inr rfl⟩
    · rw [if_neg h2]
      refine .inr ⟨fun h => ?_, rfl⟩
      obtain ⟨p, hp, e | e⟩ := mem_names2.1 h
      · exact h1 (List.any_eq_true.2 ⟨p, hp, by simpa using e.symm⟩)
      · exact h2 (List.any_eq_true.2 ⟨p, hp, by simpa using e.symm⟩)

omit [DecidableEq T] in
theorem notLater (hs : Setup ss m0 d0 x y later) : x ∉ names2 later ∧ y ∉ names2 later := by
  have h := (show (x :: y :: names2 later).Nodup from hs.apart)
  obtain ⟨h1, h2⟩ := List.nodup_cons.1 h
  exact ⟨fun e => h1 (List.mem_cons_of_mem _ e), (List.nodup_cons.1 h2).1⟩

omit [DecidableEq T] in
theorem NewDataset.hasDim (hn : NewDataset E g np ss m0 d0 x y later extra d' m') {d : String} (hd : ∃ e ∈ d0.dims, e.name = d)
    (hl : d ∉ names2 later) : ∃ e ∈ d'.dims, e.name = d := by
  obtain ⟨e, he, rfl⟩ := hd
  refine ⟨_, ?_, newLength_name x y g.x.values.length g.y.values.length e⟩
  rw [hn.dims]
  exact List.mem_map_of_mem (List.mem_filter.2 ⟨he, by simpa using hl⟩)

/-- **C100.** If all dimensions of variables exist, this is so in the new dataset. -/
theorem C100_dimensions_exist (hs : Setup ss m0 d0 x y later) {systems : List (String × System Pr)} (he : systems.map (·.2) = ss)
    (h : changeCDM E g systems m0 d0 = .ok (d', m')) (hd : ∀ v ∈ d0.vars, ∀ d ∈ v.shape, ∃ e ∈ d0.dims, e.name = d) :
    ∀ v ∈ d'.vars, ∀ d ∈ v.shape, ∃ e ∈ d'.dims, e.name = d := by
  obtain ⟨np, extra, -, hn⟩ := C100_new_dataset hs he h
  subst he
  unfold changeCDM at h
  obtain ⟨_, _, h⟩ := Res.bind_eq_ok.1 h
  obtain ⟨st, hst, h⟩ := Res.bind_eq_ok.1 h
  obtain ⟨-, -, gn, hgn, -, huse⟩ := loop_is hs.named.1 hs.vars hs.map hs.grids hs.apart hst
  have hgone' : ∀ n, ¬ Gone E.lib d0 (systems.map (·.2)) later n → gn n = false := fun n hg => by
    rw [← Bool.not_eq_true, hgn]
    exact fun h => hg (gone_iff.1 h)
  obtain ⟨nlx, nly⟩ := notLater hs
  have hx := hn.hasDim hn.hasDims.1 nlx
  have hy := hn.hasDim hn.hasDims.2 nly
  have same : ∀ w ∈ d0.vars, ¬ Gone E.lib d0 (systems.map (·.2)) later w.name → (∀ k, (w.name, k) ∉ m0) → ∀ d ∈ w.shape, ∃ e ∈ d'.dims, e.name = d := by
    intro w hw hg hk d hdw
    exact hn.hasDim (hd w hw d hdw) fun hl => huse d hl (hd w hw d hdw) w hw (hgone' _ hg) hk hdw
  have axis : ∀ n (a : NewAxis T α) (v : Var (Pay T α O)), (∀ k, (n, k) ∉ m0) → (∃ e ∈ d'.dims, e.name = n) →
      AxisVar E d0 (systems.map (·.2)) later n a v → ∀ d ∈ v.shape, ∃ e ∈ d'.dims, e.name = d := by
    intro n a v hk hdn hv d hdv
    by_cases hex : (∀ w ∈ d0.vars, w.name ≠ n) ∨ Gone E.lib d0 (systems.map (·.2)) later n
    · rw [(hv.made hex).1, List.mem_singleton] at hdv
      subst hdv
      exact hdn
    · push Not at hex
      obtain ⟨⟨w, hw, hwn⟩, hg⟩ := hex
      rw [(hv.kept w hw hwn hg).1] at hdv
      exact same w hw (hwn ▸ hg) (hwn ▸ hk) d hdv
  intro v hv d hdv
  cases (hn.vars v).1 hv with
  | @kept w v hw hg _ _ hm =>
    by_cases hk : ∃ k, (w.name, k) ∈ m0
    · rw [hm.interpolated hk, List.mem_map] at hdv
      obtain ⟨e, he, rfl⟩ := hdv
      rcases newDim_cases x y later e with ⟨-, h | h⟩ | ⟨h1, h2⟩
      · rw [h]; exact hx
      · rw [h]; exact hy
      · rw [h2]; exact hn.hasDim (hd w hw e he) h1
    · push Not at hk
      rw [hm.other hk] at hdv
      exact same w hw hg hk d hdv
  | x a => exact axis _ _ _ (fun k => (hs.axes k).1) hx a d hdv
  | y a => exact axis _ _ _ (fun k => (hs.axes k).2) hy a d hdv
  | projection a => simp at hdv
  | lon a =>
    simp only [List.mem_cons, List.not_mem_nil, or_false] at hdv
    rcases hdv with rfl | rfl
    · exact hx
    · exact hy
  | lat a =>
    simp only [List.mem_cons, List.not_mem_nil, or_false] at hdv
    rcases hdv with rfl | rfl
    · exact hx
    · exact hy

omit [DecidableEq T] in
/-- **C100.** A variable that is not interpolated and has no own values is one of the old dataset with the same dimensions; these have the same
lengths if it is not on the dimensions of the first grid. -/
theorem C100_handed_through_partial (hn : NewDataset E g np ss m0 d0 x y later extra d' m') {v : Var (Pay T α O)}
    (hv : v ∈ d'.vars) (hdata : v.payload.data = none) (hk : ∀ k, (v.name, k) ∉ m') :
    v ∈ d0.vars ∧ (x ∉ v.shape → y ∉ v.shape → ∀ d ∈ v.shape, ∀ e, e ∈ d'.dims ∧ e.name = d → e ∈ d0.dims) := by
  have one : ∀ w ∈ d0.vars, ¬ Gone E.lib d0 ss later w.name → Moved m0 x y later w v → v = w := by
    intro w hw hg hm
    have hno : ∀ k, (w.name, k) ∉ m0 := fun k h => hk k (by rw [hm.name]; exact (hn.mapped _ _).2 ⟨h, hg⟩)
    obtain ⟨n1, s1, p1⟩ := v
    have e1 := hm.name
    have e2 := hm.payload
    have e3 := hm.other hno
    dsimp only at e1 e2 e3
    rw [e1, e2, e3]
  have : v ∈ d0.vars := by
    cases (hn.vars v).1 hv with
    | kept hw hg _ _ hm => rw [one _ hw hg hm]; exact hw
    | x a => rw [a.data] at hdata; cases hdata
    | y a => rw [a.data] at hdata; cases hdata
    | projection a => cases hdata
    | lon a => cases hdata
    | lat a => cases hdata
  refine ⟨this, fun hx hy d hd e ⟨he, hed⟩ => ?_⟩
  rw [hn.dims, List.mem_map] at he
  obtain ⟨f, hf, rfl⟩ := he
  rw [newLength_name] at hed
  have : newLength x y g.x.values.length g.y.values.length f = f := by
    unfold newLength
    rw [if_neg (fun h : f.name = x => hx (by rw [← h, hed]; exact hd)), if_neg (fun h : f.name = y => hy (by rw [← h, hed]; exact hd))]
  rw [this]
  exact (List.mem_filter.1 hf).1

end

/-! ## Name of the projection -/

theorem projWord_spec : ∀ s : List Char,
    match projWord s with
    | some w => ∃ pre post, NamesProj s pre w post ∧ ∀ pre' w' post', NamesProj s pre' w' post' → pre.length ≤ pre'.length
    | none => ∀ pre w post, ¬ NamesProj s pre w post
  | [] => by
    unfold projWord
    rintro pre w post ⟨h, -, -⟩
    have := congrArg List.length h
    simp at this
  | ch :: s => by
    have ih := projWord_spec s
    have shift : ∀ pre w post, NamesProj s pre w post ↔ NamesProj (ch :: s) (ch :: pre) w post := fun pre w post =>
      ⟨fun h => ⟨by rw [h.text]; simp, h.word, h.stop⟩, fun h => ⟨by simpa using h.text, h.word, h.stop⟩⟩
    have start : ∀ pre w post, NamesProj (ch :: s) pre w post →
        (pre = [] ∧ "+proj=".toList.isPrefixOf (ch :: s) = true ∧ ((ch :: s).drop 6).takeWhile (fun ch => !isSpace ch) = w) ∨
        ∃ pre', pre = ch :: pre' ∧ NamesProj s pre' w post := by
      intro pre w post h
      cases pre with
      | nil =>
        left
        have e := h.text
        rw [List.nil_append, List.append_assoc] at e
        refine ⟨rfl, isPrefixOf_iff.2 ⟨_, e⟩, ?_⟩
        rw [e]
        show (w ++ post).takeWhile _ = w
        rw [List.takeWhile_append_of_pos (by simpa using h.word.2)]
        cases hp : post with
        | nil => simp
        | cons z r => rw [List.takeWhile_cons_of_neg (by simp [h.stop z r hp])]; simp
      | cons z pre' =>
        right
        have e := h.text
        have : ch = z := by
          rw [List.cons_append, List.cons_append, List.cons_append] at e
          exact (List.cons.inj e).1
        subst this
        exact ⟨pre', rfl, (shift _ _ _).2 h⟩
    have rest : (∀ w post, ¬ NamesProj (ch :: s) [] w post) →
        match projWord s with
        | some w => ∃ pre post, NamesProj (ch :: s) pre w post ∧ ∀ pre' w' post', NamesProj (ch :: s) pre' w' post' → pre.length ≤ pre'.length
        | none => ∀ pre w post, ¬ NamesProj (ch :: s) pre w post := by
      intro hno
      cases hp : projWord s with
      | none =>
        rw [hp] at ih
        intro pre w post h
        cases pre with
        | nil => exact hno w post h
        | cons z pre' =>
          rcases start _ _ _ h with ⟨e, -⟩ | ⟨pre'', e, h'⟩
          · cases e
          · exact ih _ _ _ h'
      | some w =>
        rw [hp] at ih
        obtain ⟨pre, post, h1, h2⟩ := ih
        refine ⟨ch :: pre, post, (shift _ _ _).1 h1, fun pre' w' post' h => ?_⟩
        cases pre' with
        | nil => exact absurd h (hno w' post')
        | cons z pre' =>
          rcases start _ _ _ h with ⟨e, -⟩ | ⟨pre'', e, h'⟩
          · cases e
          · cases e
            have := h2 _ _ _ h'
            simp only [List.length_cons]
            omega
    unfold projWord
    by_cases hp : "+proj=".toList.isPrefixOf (ch :: s) = true
    · rw [if_pos hp]
      dsimp only
      by_cases hw : ((ch :: s).drop 6).takeWhile (fun ch => !isSpace ch) = []
      · rw [if_pos hw]
        refine rest fun w post h => ?_
        rcases start _ _ _ h with ⟨-, -, e⟩ | ⟨_, e, -⟩
        · exact h.word.1 (e.symm.trans hw)
        · cases e
      · rw [if_neg hw]
        obtain ⟨r, hr⟩ := isPrefixOf_iff.1 hp
        refine ⟨[], ((ch :: s).drop 6).dropWhile (fun ch => !isSpace ch), ⟨?_, ⟨hw, fun z hz => ?_⟩, fun z r hz => ?_⟩, fun _ _ _ _ => Nat.zero_le _⟩
        · rw [List.nil_append, List.append_assoc, List.takeWhile_append_dropWhile, hr]
          rfl
        · simpa using List.all_eq_true.1 (List.all_takeWhile (p := fun ch => !isSpace ch)) z hz
        · have := List.head?_dropWhile_not (fun ch => !isSpace ch) ((ch :: s).drop 6)
          rw [hz] at this
          simpa using this
    · rw [if_neg hp]
      refine rest fun w post h => ?_
      rcases start _ _ _ h with ⟨-, e, -⟩ | ⟨_, e, -⟩
      · exact hp e
      · cases e

/-- **C100.** The name of the projection is the word after the first `+proj=` that is followed by one, the four names of longitude and latitude
being the same; a text without one is refused. -/
theorem C100_projection_name (s : String) :
    (∃ pre w post np, NamesProj s.toList pre w post ∧ (∀ pre' w' post', NamesProj s.toList pre' w' post' → pre.length ≤ pre'.length) ∧
      projectionName s = .ok np ∧ (String.ofList w ∈ ["latlon", "latlong", "lonlat", "longlat"] → np = "latlong") ∧
      (String.ofList w ∉ ["latlon", "latlong", "lonlat", "longlat"] → np = String.ofList w)) ∨
    ((∀ pre w post, ¬ NamesProj s.toList pre w post) ∧ projectionName s = .throws) := by
  have h := projWord_spec s.toList
  unfold projectionName
  cases hp : projWord s.toList with
  | none =>
    rw [hp] at h
    exact .inr ⟨h, rfl⟩
  | some w =>
    rw [hp] at h
    obtain ⟨pre, post, h1, h2⟩ := h
    refine .inl ⟨pre, w, post, _, h1, h2, rfl, fun hm => if_pos (by simpa using hm), fun hm => if_neg (by simpa using hm)⟩

/-! ## From the coordinate systems to the new dataset -/

theorem removeAll {c : CDM P V CS} (hc : Plain c) (ns : List String) :
    Less ns c (ns.foldl removeVariable c) ∧ Plain (ns.foldl removeVariable c) := by
  have hfold : ∀ (ns : List String) (c : CDM P V CS) (m : List (String × String)), (ns.foldl Change.drop (c, m)).1 = ns.foldl removeVariable c := by
    intro ns
    induction ns with
    | nil => intros; rfl
    | cons n ns ih => intro c m; exact ih _ _
  have hr := Rep.dropAll ns (rep_start c ([] : List (String × String)))
  rw [hfold] at hr
  have hvars : (ns.foldl removeVariable c).vars = c.vars.filter fun v => !ns.contains v.name := by
    rw [hr.vars, List.map_congr_left (g := id) (fun v _ => adapt_id [] v), List.map_id]
    simp
  have hdims : (ns.foldl removeVariable c).dims = c.dims := by
    rw [hr.dims, List.filter_eq_self.2 (by simp)]
  refine ⟨⟨hvars, hdims, fun n hn => ?_⟩, hr.nodup hc.vars, by rw [hdims]; exact hc.dims, fun n hn => ?_, fun v hv => ?_⟩
  · refine ga_eq ?_
    rw [hr.attrs]
    simp [hn]
  · rw [hr.attrs] at hn
    by_cases hm : n ∈ ns
    · simp [hm] at hn
    · have hn : c.attrs n ≠ none := by simpa [hm] using hn
      rcases hc.owned n hn with h | ⟨v, hv, rfl⟩
      · exact .inl h
      · exact .inr ⟨v, by rw [hvars]; exact List.mem_filter.2 ⟨hv, by simpa using hm⟩, rfl⟩
  · rw [hvars] at hv
    exact hc.global v (List.mem_filter.1 hv).1

theorem axes_of_chosen {c : CDM P V CS} {wp : Bool} {l : List (System Pr)} {b : Best Pr} (h : findBest wp l c = .ok b) {k : String} {s : System Pr}
    (hc : Chosen wp l k s) : (∃ a, XAxis s a) ∧ ∃ a, YAxis s a := by
  obtain ⟨-, ⟨inc, hi, -⟩, -⟩ := findBest_ok h
  obtain ⟨r, -, e⟩ := forall2_left (each_ok hi) (((systemMap_spec wp l).2 k s).2 hc)
  unfold incompatibleWith at e
  cases hx : geoX s with
  | none => rw [hx] at e; cases e
  | some x =>
    cases hy : geoY s with
    | none => rw [hx, hy] at e; cases e
    | some y => exact ⟨⟨x, geoX_iff.1 hx⟩, ⟨y, geoY_iff.1 hy⟩⟩

/-- Every system with two axes has a grid. -/
theorem grid_exists (c : CDM P V CS) {s : System Pr} (hx : ∃ a, XAxis s a) (hy : ∃ a, YAxis s a) : ∃ p, GridOf c s p := by
  obtain ⟨ax, hx⟩ := hx
  obtain ⟨ay, hy⟩ := hy
  by_cases h : ∃ x y, TwoDimLon c s ax x y
  · obtain ⟨x, y, h⟩ := h
    exact ⟨(x, y), ax, ay, hx, hy, .inl h⟩
  · push Not at h
    exact ⟨(ax.name, ay.name), ax, ay, hx, hy, .inr ⟨h, rfl⟩⟩

theorem grids_exist (c : CDM P V CS) : ∀ {ss : List (System Pr)}, (∀ s ∈ ss, (∃ a, XAxis s a) ∧ ∃ a, YAxis s a) → ∃ ps, List.Forall₂ (fun s p => GridOf c s p) ss ps
  | [], _ => ⟨[], .nil⟩
  | s :: ss, h => by
    obtain ⟨ps, hps⟩ := grids_exist c (ss := ss) fun s hs => h s (List.mem_cons_of_mem _ hs)
    obtain ⟨p, hp⟩ := grid_exists c (h s List.mem_cons_self).1 (h s List.mem_cons_self).2
    exact ⟨p :: ps, .cons hp hps⟩

section
variable [DecidableEq T] {E : Ext V Pr T α} {g : Target T α} {c d' : CDM (Pay T α O) V CS} {m' : List (String × String)}

/-- **C100.** The whole change: what is left over on the old grids is removed; then, if the grids are apart, the result is the new dataset, with
dimensions for all variables. -/
theorem C100_change (hc : Plain c) {wp : Bool} {l : List (System Pr)} (hl : ∀ s ∈ l, Sound s) (h : change E g wp l c = .ok (d', m')) :
    ∃ b c1 x y later, findBest wp l c = .ok b ∧ Less b.incompatible c c1 ∧ List.Forall₂ (fun s p => GridOf c1 s p) (b.systems.map (·.2)) ((x, y) :: later) ∧
      (Apart b.mapped x y later → ∃ np extra, projectionName g.projString = .ok np ∧
        NewDataset E g np (b.systems.map (·.2)) b.mapped c1 x y later extra d' m' ∧
        ((∀ v ∈ c.vars, ∀ d ∈ v.shape, ∃ e ∈ c.dims, e.name = d) → ∀ v ∈ d'.vars, ∀ d ∈ v.shape, ∃ e ∈ d'.dims, e.name = d)) := by
  unfold change prepare at h
  obtain ⟨⟨b, c1⟩, h1, h⟩ := Res.bind_eq_ok.1 h
  obtain ⟨b', hb, h1⟩ := Res.bind_eq_ok.1 h1
  by_cases hemp : b'.systems.isEmpty = true
  · rw [if_pos hemp] at h1
    cases h1
  rw [if_neg hemp] at h1
  cases h1
  dsimp only at h
  have hinc : ∀ n ∈ b.incompatible, (∃ v ∈ c.vars, v.name = n) ∧ ∀ k, (n, k) ∉ b.mapped := fun n hn => by
    obtain ⟨k, s, -, v, hv, hvn, -, hno, -⟩ := (C99_incompatible hc.vars hb n).1 hn
    exact ⟨⟨v, hv, hvn⟩, hno⟩
  obtain ⟨hless, hplain⟩ := removeAll hc b.incompatible
  have hgr : ∀ s ∈ b.systems.map (·.2), (∃ a, XAxis s a) ∧ ∃ a, YAxis s a := by
    intro t ht
    obtain ⟨⟨k, t'⟩, hm, rfl⟩ := List.mem_map.1 ht
    obtain ⟨-, s, hs, hh⟩ := (C99_systems hl hb).2.2 k t' hm
    obtain ⟨⟨a, ha⟩, ⟨a', ha'⟩⟩ : (∃ a, XAxis s a) ∧ ∃ a, YAxis s a := axes_of_chosen hb hs
    exact ⟨⟨a, (hh.x a).2 ha⟩, ⟨a', (hh.y a').2 ha'⟩⟩
  obtain ⟨ps, hps⟩ := grids_exist (b.incompatible.foldl removeVariable c) hgr
  cases hps' : ps with
  | nil =>
    subst hps'
    have := hps.length_eq
    simp only [List.length_map, List.length_nil, List.length_eq_zero_iff] at this
    rw [this] at hemp
    exact absurd rfl hemp
  | cons p later =>
    subst hps'
    obtain ⟨x, y⟩ := p
    refine ⟨b, _, x, y, later, hb, hless, hps, fun hap => ?_⟩
    obtain ⟨hsort, hmem⟩ := C99_variables hb
    have hs : Setup (b.systems.map (·.2)) b.mapped (b.incompatible.foldl removeVariable c) x y later :=
      ⟨hplain.vars, hplain.dims, hplain.owned, hplain.global, hsort.imp (fun h => ne_of_lt h), fun n k hk => ?_, hps, hap.apart, hap.named, hap.axes, hap.free⟩
    swap
    · obtain ⟨v, hv, hn, -⟩ := (hmem n k).1 hk
      refine ⟨v, ?_, hn⟩
      rw [hless.vars]
      exact List.mem_filter.2 ⟨hv, by
        rw [hn]
        simpa using fun h => (hinc n h).2 k hk⟩
    obtain ⟨np, extra, hnp, hn⟩ := C100_new_dataset hs rfl h
    refine ⟨np, extra, hnp, hn, fun hd => C100_dimensions_exist hs rfl h fun v hv d hdv => ?_⟩
    rw [hless.vars] at hv
    rw [hless.dims]
    exact hd v (List.mem_filter.1 hv).1 d hdv

end

/-! ## Cases -/

/-- Values are texts, numbers are natural numbers. -/
def toyExt : Ext String String Bool Nat where
  lib := toyLib
  value := id
  parameters s := .ok [⟨"grid_mapping_name", "new"⟩, ⟨"proj4", s⟩]
  cast _ l := l
  int := false
  double := true
  lonLat _ xs ys := .ok (ys.flatMap fun _ => xs, ys.flatMap fun y => xs.map fun _ => y)

/-- A dataset of names, lengths, shapes and attributes. -/
def dataset (dims : List (String × Nat)) (vars : List (String × List String × List (String × String))) : CDM (Pay Bool Nat Unit) String Unit where
  attrs n := (vars.find? fun v => v.1 == n).map fun v => v.2.2.map fun a => ⟨a.1, a.2⟩
  vars := vars.map fun v => ⟨v.1, v.2.1, ⟨true, none, none⟩⟩
  dims := dims.map fun d => ⟨d.1, d.2, false⟩
  coordsInitialized := false
  coordSystems := ()

def toTarget (s : String) : Target Bool Nat := ⟨s, ⟨[1, 2, 3], "m", true⟩, ⟨[4, 5], "m", true⟩, "lon", "lat"⟩

/-- What can be seen of the result: lengths, shapes and whether there are own values, attributes, interpolated variables. -/
structure View where
  dims : List (String × Nat)
  vars : List (String × List String × Bool)
  attrs : List (String × String × String)
  mapped : List String
deriving DecidableEq

def view (r : Res (CDM (Pay Bool Nat Unit) String Unit × List (String × String))) : Res View :=
  match r with
  | .ok (c, m) => .ok ⟨c.dims.map fun d => (d.name, d.length), c.vars.map fun v => (v.name, v.shape, v.payload.data.isSome),
      c.vars.flatMap fun v => (getAttributes c v.name).map fun a => (v.name, a.name, a.value), m.map (·.1)⟩
  | .throws => .throws
  | .ub => .ub

def changed (s : String) (c : CDM (Pay Bool Nat Unit) String Unit) : Res View :=
  match listCF toyLib c with
  | .ok l => view (change toyExt (toTarget s) true l c)
  | _ => .ub

/-- Two grids without common dimensions, `S` on a dimension of the first. -/
def twoGrids : CDM (Pay Bool Nat Unit) String Unit := dataset [("x", 5), ("y", 6), ("xs", 6), ("ys", 7), ("time", 2)]
  [("x", ["x"], [("axis", "X"), ("long_name", "x")]), ("y", ["y"], [("axis", "Y")]), ("xs", ["xs"], [("axis", "X")]), ("ys", ["ys"], [("axis", "Y")]),
   ("lcc", [], [("grid_mapping_name", "lcc")]), ("T", ["x", "y", "time"], [("grid_mapping", "lcc")]), ("U", ["xs", "ys", "time"], [("grid_mapping", "lcc")]),
   ("time", ["time"], []), ("S", ["x"], [])]

example : changed "+proj=stere +lat_0=90" twoGrids = .ok
    { dims := [("x", 3), ("y", 2), ("time", 2)]
      vars := [("x", ["x"], true), ("y", ["y"], true), ("T", ["x", "y", "time"], false), ("U", ["x", "y", "time"], false), ("time", ["time"], false),
        ("projection_stere", [], true), ("lon", ["x", "y"], true), ("lat", ["x", "y"], true)]
      attrs := [("x", "axis", "X"), ("x", "standard_name", "projection_x_coordinate"), ("x", "units", "m"), ("y", "axis", "Y"),
        ("y", "standard_name", "projection_y_coordinate"), ("y", "units", "m"), ("T", "coordinates", "lon lat"), ("T", "grid_mapping", "projection_stere"),
        ("U", "coordinates", "lon lat"), ("U", "grid_mapping", "projection_stere"), ("projection_stere", "grid_mapping_name", "new"),
        ("projection_stere", "proj4", "+proj=stere +lat_0=90"), ("lon", "units", "degree_east"), ("lon", "long_name", "longitude"),
        ("lon", "standard_name", "longitude"), ("lat", "units", "degree_north"), ("lat", "long_name", "latitude"), ("lat", "standard_name", "latitude")]
      mapped := ["T", "U"] } := by decide +kernel

theorem dataset_plain {dims : List (String × Nat)} {vars : List (String × List String × List (String × String))} (h1 : (vars.map (·.1)).Nodup)
    (h2 : (dims.map (·.1)).Nodup) (h3 : ∀ v ∈ vars, v.1 ≠ globalNS) : Plain (dataset dims vars) where
  vars := by
    unfold dataset
    rw [List.map_map]
    exact h1
  dims := by
    unfold dataset
    rw [List.map_map]
    exact h2
  owned n hn := by
    right
    unfold dataset at hn ⊢
    dsimp only at hn ⊢
    cases hf : vars.find? fun v => v.1 == n with
    | none => rw [hf] at hn; exact absurd rfl hn
    | some v => exact ⟨_, List.mem_map_of_mem (List.mem_of_find?_eq_some hf), by simpa using List.find?_some hf⟩
  global v hv := by
    unfold dataset at hv
    dsimp only at hv
    obtain ⟨w, hw, rfl⟩ := List.mem_map.1 hv
    exact h3 w hw

/-- The names of its two grids are apart. -/
theorem twoGrids_apart : Apart [("T", "x,y"), ("U", "xs,ys")] "x" "y" [("xs", "ys")] where
  apart := by decide +kernel
  named := by decide +kernel
  axes k := by simp
  free r := by
    constructor <;> intro e <;> have := congrArg (fun s : String => s.toList.head?) e <;> rw [String.toList_append] at this <;>
      exact absurd this (by simp)

example : Plain twoGrids := dataset_plain (by decide +kernel) (by decide +kernel) (by decide +kernel)

/-- The grids and variables for which they are apart are those that are found. -/
example : ((listCF toyLib twoGrids).bind fun l => (findBest true l twoGrids).bind fun b => (changeSystems toyLib (b.systems.map (·.2)) ⟨twoGrids, b.mapped, "", ""⟩).bind
    fun st => .ok (b.mapped, b.systems.map (·.1), st.x, st.y)) = .ok ([("T", "x,y"), ("U", "xs,ys")], ["x,y", "xs,ys"], "x", "y") := by decide +kernel

/-- Two grids with a common dimension, as on staggered grids: the change fails, because the dimension is still used. -/
theorem C100_common_dimension : changed "+proj=stere" (dataset [("x", 5), ("y", 6), ("xs", 6)]
    [("x", ["x"], [("axis", "X")]), ("y", ["y"], [("axis", "Y")]), ("xs", ["xs"], [("axis", "X")]), ("lcc", [], [("grid_mapping_name", "lcc")]),
     ("T", ["x", "y"], [("grid_mapping", "lcc")]), ("U", ["xs", "y"], [("grid_mapping", "lcc")])]) = .throws := by decide +kernel

/-- If the common dimension is the first one, the other dimension is left over with its old length, and the attributes of the axis are lost. -/
theorem C100_dimension_left : ∃ r, changed "+proj=longlat" (dataset [("x", 5), ("y", 6), ("ys", 7)]
    [("x", ["x"], [("axis", "X"), ("comment", "a")]), ("y", ["y"], [("axis", "Y"), ("comment", "b")]), ("ys", ["ys"], [("axis", "Y")]),
     ("lcc", [], [("grid_mapping_name", "lcc")]), ("T", ["x", "y"], [("grid_mapping", "lcc")]), ("V", ["x", "ys"], [("grid_mapping", "lcc")])]) = .ok r ∧
    r.dims = [("x", 3), ("y", 2), ("ys", 7)] ∧ (∀ v ∈ r.vars, "ys" ∉ v.2.1) ∧ ("y", "comment", "b") ∈ r.attrs ∧ ("x", "comment", "a") ∉ r.attrs := by
  refine ⟨⟨[("x", 3), ("y", 2), ("ys", 7)], [("y", ["y"], true), ("T", ["x", "y"], false), ("V", ["x", "y"], false), ("x", ["x"], true)],
    [("y", "axis", "Y"), ("y", "comment", "b"), ("y", "standard_name", "latitude"), ("y", "units", "m"), ("x", "standard_name", "longitude"), ("x", "units", "m")],
    ["T", "V"]⟩, ?_⟩
  decide +kernel

/-- An auxiliary coordinate on the old grid: it is not interpolated, has the dimensions of the new grid, and its values are read from the old one. -/
theorem C100_auxiliary_coordinate : ∃ r, changed "+proj=longlat" (dataset [("x", 5), ("y", 6)]
    [("x", ["x"], [("axis", "X")]), ("y", ["y"], [("axis", "Y")]), ("lcc", [], [("grid_mapping_name", "lcc")]),
     ("oro", ["x", "y"], [("units", "m"), ("positive", "up")]), ("T", ["x", "y"], [("grid_mapping", "lcc"), ("coordinates", "oro")])]) = .ok r ∧
    r.dims = [("x", 3), ("y", 2)] ∧ ("oro", ["x", "y"], false) ∈ r.vars ∧ r.mapped = ["T"] := by
  refine ⟨⟨[("x", 3), ("y", 2)], [("x", ["x"], true), ("y", ["y"], true), ("oro", ["x", "y"], false), ("T", ["x", "y"], false)],
    [("x", "axis", "X"), ("x", "standard_name", "longitude"), ("x", "units", "m"), ("y", "axis", "Y"), ("y", "standard_name", "latitude"), ("y", "units", "m"),
     ("oro", "units", "m"), ("oro", "positive", "up")], ["T"]⟩, ?_⟩
  decide +kernel

/-- A rotated pole as `+proj=ob_tran`: the axes are named as those of a projection in metres, not as rotated longitude and latitude.  The old scale
factor of an axis stays, although the values are new and not packed. -/
theorem C100_rotated_pole : ∃ r, changed "+proj=ob_tran +o_proj=longlat" (dataset [("x", 5), ("y", 6)]
    [("x", ["x"], [("axis", "X"), ("scale_factor", "10")]), ("y", ["y"], [("axis", "Y")]), ("lcc", [], [("grid_mapping_name", "lcc")]),
     ("T", ["x", "y"], [("grid_mapping", "lcc")])]) = .ok r ∧
    ("x", "standard_name", "projection_x_coordinate") ∈ r.attrs ∧ ("x", "scale_factor", "10") ∈ r.attrs := by
  refine ⟨⟨[("x", 3), ("y", 2)], [("x", ["x"], true), ("y", ["y"], true), ("T", ["x", "y"], false), ("projection_ob_tran", [], true),
    ("lon", ["x", "y"], true), ("lat", ["x", "y"], true)],
    [("x", "axis", "X"), ("x", "scale_factor", "10"), ("x", "standard_name", "projection_x_coordinate"), ("x", "units", "m"), ("y", "axis", "Y"),
     ("y", "standard_name", "projection_y_coordinate"), ("y", "units", "m"), ("T", "coordinates", "lon lat"), ("T", "grid_mapping", "projection_ob_tran"),
     ("projection_ob_tran", "grid_mapping_name", "new"), ("projection_ob_tran", "proj4", "+proj=ob_tran +o_proj=longlat"), ("lon", "units", "degree_east"),
     ("lon", "long_name", "longitude"), ("lon", "standard_name", "longitude"), ("lat", "units", "degree_north"), ("lat", "long_name", "latitude"),
     ("lat", "standard_name", "latitude")], ["T"]⟩, ?_⟩
  decide +kernel

end Fimex.Change
