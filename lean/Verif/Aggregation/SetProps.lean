import Verif.Aggregation.SetStep

/-! # C105: the dataset of an aggregation -/

namespace Fimex.AggSet

open Cdm

variable {R D V CS : Type}

/-- What is required of the readers: they are proper datasets, and none has a dimension with the name of the new one. -/
def Proper (t : Kind) (jd : String) (l : List (DS R D V CS × String)) : Prop :=
  ∀ p ∈ l, Fine p.1 ∧ (t = .new → ∀ d ∈ p.1.dims, d.name ≠ jd)

/-- Names are unique, attributes belong to variables, and there is at most one unlimited dimension, which is the joined one. -/
theorem C105_dataset {t : Kind} {jd : String} {jv : List String} {c0 : DS R D V CS} {l : List (DS R D V CS × String)} {s : State R D V CS} (hl : l ≠ [])
    (hp : Proper t jd l) (h : addReaders t jd l (start c0 t jv) = (s, .ok ())) :
    (s.cdm.vars.map (·.name)).Nodup ∧ (s.cdm.dims.map (·.name)).Nodup ∧ (∀ n, s.cdm.attrs n ≠ none → n = globalNS ∨ ∃ v ∈ s.cdm.vars, v.name = n) ∧
      (∀ d ∈ s.cdm.dims, ∀ e ∈ s.cdm.dims, d.unlimited = true → e.unlimited = true → d = e) ∧
      (t = .existing → ∀ d ∈ s.cdm.dims, d.unlimited = true → l.findSome? (fun p => (getUnlimitedDim p.1).map (·.name)) = some d.name) ∧
      (t = .new → ∃ d ∈ s.cdm.dims, d.name = jd ∧ d.unlimited = true) := by
  have g := good_addReaders hl hp h
  refine ⟨g.inv.vars, g.inv.dims, fun n hn => ?_, g.one, fun ht d hd hdu => ?_, fun ht => ?_⟩
  · rcases g.inv.owners n hn with h' | h'
    · exact .inl h'
    · rw [hasVariable_iff, List.mem_map] at h'
      exact .inr h'
  · subst ht
    have := g.uname (by simp)
    obtain ⟨u, hu⟩ := Option.isSome_iff_exists.1 (getUnlimitedDim_isSome.2 ⟨d, hd, hdu⟩)
    rw [hu, g.one u (unl_of hu).1 d hd (unl_of hu).2 hdu] at this
    exact this.symm
  · subst ht
    obtain ⟨u, hu, hun⟩ := Option.map_eq_some_iff.1 (show (getUnlimitedDim s.cdm).map (·.name) = some jd from g.uname (by simp))
    exact ⟨u, (unl_of hu).1, hun, (unl_of hu).2⟩

/-- Each variable is joined or comes from one of the readers, where it has the same attributes, shape, data and lengths of dimensions. -/
theorem C105_origin {t : Kind} {jd : String} {jv : List String} {c0 : DS R D V CS} {l : List (DS R D V CS × String)} {s : State R D V CS} (hl : l ≠ [])
    (hp : Proper t jd l) (h : addReaders t jd l (start c0 t jv) = (s, .ok ())) :
    (∀ v ∈ s.cdm.vars, (v.name ∈ s.join ∧ s.provider.lookup v.name = none) ∨
      (v.name ∉ s.join ∧ ∃ k p, s.provider.lookup v.name = some k ∧ l[k]? = some p ∧ s.readers[k]? = some p.1 ∧ v ∈ p.1.vars ∧
        getAttributes s.cdm v.name = getAttributes p.1 v.name ∧
        ∀ m ∈ v.shape, ∃ d ∈ s.cdm.dims, ∃ e ∈ p.1.dims, d.name = m ∧ e.name = m ∧ d.length = e.length)) ∧
      ∀ n k, s.provider.lookup n = some k → ∃ v ∈ s.cdm.vars, v.name = n := by
  have g := good_addReaders hl hp h
  refine ⟨fun v hv => ?_, fun n k hk => ?_⟩
  · cases hk : s.provider.lookup v.name with
    | none =>
      refine .inl ⟨?_, rfl⟩
      rcases g.covered v.name (by rw [hasVariable_iff]; exact List.mem_map_of_mem hv) with h' | h'
      · exact h'
      · rw [hk] at h'; cases h'
    | some k =>
      obtain ⟨a1, p, a2, w, a3, a4, a5, a6, a7⟩ := g.prov _ k hk
      have : w = v := Inv.var_eq g.inv a5 hv a4
      subst this
      refine .inr ⟨a1, k, p, rfl, a2, by rw [g.readers, List.getElem?_map, a2]; rfl, a3, a6, fun m hm => ?_⟩
      obtain ⟨d, hd, e, he, b1, b2, b3, -⟩ := a7 m hm
      exact ⟨d, hd, e, he, b1, b2, b3⟩
  · obtain ⟨-, p, -, w, -, a4, a5, -⟩ := g.prov n k hk
    exact ⟨w, a5, a4⟩

/-- Along an existing dimension: the joined variables are variables of readers with that dimension, and the variables with that dimension are the joined
ones.  They have no data of their own; their other dimensions have the lengths they have in that reader. -/
theorem C105_joined_existing {jd : String} {jv : List String} {c0 : DS R D V CS} {l : List (DS R D V CS × String)} {s : State R D V CS} (hl : l ≠ [])
    (hp : Proper .existing jd l) (h : addReaders .existing jd l (start c0 .existing jv) = (s, .ok ())) :
    ∀ v ∈ s.cdm.vars,
      (v.name ∈ s.join → ∃ p ∈ l, ∃ w ∈ p.1.vars, w.name = v.name ∧ v.shape = w.shape ∧ v.payload.rest = w.payload.rest ∧ v.payload.data = none ∧
        getAttributes s.cdm v.name = getAttributes p.1 v.name ∧ ∃ u ∈ s.cdm.dims, u.unlimited = true ∧ u.name ∈ v.shape ∧
          (∃ e ∈ p.1.dims, e.name = u.name ∧ e.unlimited = true) ∧
          ∀ n ∈ v.shape, n ≠ u.name → ∃ d ∈ s.cdm.dims, ∃ e ∈ p.1.dims, d.name = n ∧ e.name = n ∧ d.length = e.length) ∧
      (v.name ∈ s.join ↔ ∃ u ∈ s.cdm.dims, u.unlimited = true ∧ u.name ∈ v.shape) := by
  have g := good_addReaders hl hp h
  have key : ∀ v ∈ s.cdm.vars, v.name ∈ s.join → ∃ p ∈ l, ∃ w ∈ p.1.vars, w.name = v.name ∧ v.shape = w.shape ∧ v.payload.rest = w.payload.rest ∧
      v.payload.data = none ∧ getAttributes s.cdm v.name = getAttributes p.1 v.name ∧ ∃ u ∈ s.cdm.dims, u.unlimited = true ∧ u.name ∈ v.shape ∧
          (∃ e ∈ p.1.dims, e.name = u.name ∧ e.unlimited = true) ∧
          ∀ n ∈ v.shape, n ≠ u.name → ∃ d ∈ s.cdm.dims, ∃ e ∈ p.1.dims, d.name = n ∧ e.name = n ∧ d.length = e.length := by
    intro v hv hj
    obtain ⟨p, hpl, w, hw, hwn, a1, rfl, u, a2, a3, a4, a5⟩ := g.joins v hv hj
    obtain ⟨e, he, hen⟩ := Option.map_eq_some_iff.1 a4
    refine ⟨p, hpl, w, hw, hwn, rfl, rfl, rfl, a1, u, (unl_of a2).1, (unl_of a2).2, a3, ⟨e, (unl_of he).1, hen, (unl_of he).2⟩, fun n hn hne => ?_⟩
    obtain ⟨d, hd, e', he', b1, b2, b3, -⟩ := a5 n hn hne
    exact ⟨d, hd, e', he', b1, b2, b3⟩
  intro v hv
  refine ⟨key v hv, fun hj => ?_, fun ⟨u, hu, huu, hus⟩ => ?_⟩
  · obtain ⟨-, -, -, -, -, -, -, -, -, u, h1, h2, h3, -⟩ := key v hv hj
    exact ⟨u, h1, h2, h3⟩
  · by_contra hj
    rcases g.covered v.name (by rw [hasVariable_iff]; exact List.mem_map_of_mem hv) with h' | h'
    · exact hj h'
    · obtain ⟨k, hk⟩ := Option.isSome_iff_exists.1 h'
      obtain ⟨-, p, -, w, -, a4, a5, -, a7⟩ := g.prov _ k hk
      rw [Inv.var_eq g.inv a5 hv a4] at a7
      obtain ⟨d, hd, e, -, b1, -, -, b4⟩ := a7 u.name hus
      rw [Inv.dim_eq g.inv hd hu b1] at b4
      rw [b4 (by simp)] at huu
      cases huu

/-- Along a new dimension: the joined variables are those named, with the new dimension as last one. -/
theorem C105_joined_new {jd : String} {jv : List String} {c0 : DS R D V CS} {l : List (DS R D V CS × String)} {s : State R D V CS} (hl : l ≠ [])
    (hp : Proper .new jd l) (h : addReaders .new jd l (start c0 .new jv) = (s, .ok ())) :
    (∀ p ∈ l, ∀ w ∈ p.1.vars, w.name ∈ jv → ∃ v ∈ s.cdm.vars, v.name = w.name) ∧
    ∀ v ∈ s.cdm.vars, (v.name ∈ s.join ↔ v.name ∈ jv) ∧ (v.name ∈ jv → ∃ p ∈ l, ∃ w ∈ p.1.vars, w.name = v.name ∧ v.shape = w.shape ++ [jd] ∧
      v.payload = w.payload ∧ getAttributes s.cdm v.name = getAttributes p.1 v.name) ∧ (v.name ∉ jv → jd ∉ v.shape) := by
  have g := good_addReaders hl hp h
  have hj := g.joinNew rfl
  refine ⟨fun p hpl w hw hwj => ?_, fun v hv => ⟨by rw [hj], fun hvj => ?_, fun hvj hs => ?_⟩⟩
  · have := g.named rfl p hpl w hw (by rw [hj]; exact hwj)
    rwa [hasVariable_iff, List.mem_map] at this
  · obtain ⟨p, hpl, w, hw, hwn, a1, rfl⟩ := g.joins v hv (by rw [hj]; exact hvj)
    exact ⟨p, hpl, w, hw, hwn, rfl, rfl, a1⟩
  · rcases g.covered v.name (by rw [hasVariable_iff]; exact List.mem_map_of_mem hv) with h' | h'
    · exact hvj (by rw [← hj]; exact h')
    · obtain ⟨k, hk⟩ := Option.isSome_iff_exists.1 h'
      obtain ⟨-, p, b0, w, -, a4, a5, -, a7⟩ := g.prov _ k hk
      rw [Inv.var_eq g.inv a5 hv a4] at a7
      obtain ⟨d, hd, e, he, b1, b2, -, b4⟩ := a7 jd hs
      exact (hp p (List.mem_of_getElem? b0)).2 rfl e he b2

/-- No variable of a reader is lost but for dimensions on which the readers do not agree. -/
theorem C105_complete {t : Kind} {jd : String} {jv : List String} {c0 : DS R D V CS} {l : List (DS R D V CS × String)} {s : State R D V CS} (hl : l ≠ [])
    (hp : Proper t jd l) (h : addReaders t jd l (start c0 t jv) = (s, .ok ())) :
    ∀ p ∈ l, ∀ w ∈ p.1.vars, (∃ v ∈ s.cdm.vars, v.name = w.name) ∨ ∃ n ∈ w.shape, Clash t s.cdm p.1 n := by
  have g := good_addReaders hl hp h
  intro p hpl w hw
  rcases g.complete p hpl w hw with h' | h'
  · rw [hasVariable_iff, List.mem_map] at h'
    exact .inl h'
  · exact .inr h'

/-- The joined dimension is as long as those of the readers together, and each position of it belongs to one of them: that of reader `k` which is reached
after as many positions as the readers before it have. -/
theorem C105_length {t : Kind} {jd : String} {jv : List String} {c0 : DS R D V CS} {l : List (DS R D V CS × String)} {s : State R D V CS} (hl : l ≠ [])
    (hp : Proper t jd l) (ht : t ≠ .union) (h : addReaders t jd l (start c0 t jv) = (s, .ok ())) {u : Dim} (hu : u ∈ s.cdm.dims) (huu : u.unlimited = true) :
    u.length = (l.map fun p => part t (some u.name) p.1).sum ∧ s.ends.length = s.readers.length ∧
    (∀ pos < u.length, ∃ k q, Aggregation.findJoinReader s.ends pos = some (k, q) ∧ ∃ p, l[k]? = some p ∧ s.readers[k]? = some p.1 ∧
      q < part t (some u.name) p.1 ∧ ((l.take k).map fun p => part t (some u.name) p.1).sum + q = pos) ∧
    ∀ pos, u.length ≤ pos → Aggregation.findJoinReader s.ends pos = none := by
  have g := good_addReaders hl hp h
  have hu1 : getUnlimitedDim s.cdm = some u := by
    obtain ⟨u', hu'⟩ := Option.isSome_iff_exists.1 (getUnlimitedDim_isSome.2 ⟨u, hu, huu⟩)
    rw [hu', g.one u' (unl_of hu').1 u hu (unl_of hu').2 huu]
  have hn : udName t jd l = some u.name := by rw [← g.uname ht, hu1]; rfl
  have he := g.ends ht
  rw [hn] at he
  have hlen : u.length = (l.map fun p => part t (some u.name) p.1).sum := by rw [g.ulen ht u hu1, he, lastEnd_endsOf]
  refine ⟨hlen, by rw [he, g.readers]; simp [Aggregation.endsOf], fun pos hpos => ?_, fun pos hpos => ?_⟩
  · obtain ⟨k, q, b1, b2, b3, b4⟩ := (Aggregation.findJoinReader_spec (l.map fun p => part t (some u.name) p.1) pos).1 (by rw [← hlen]; exact hpos)
    have hk : k < l.length := by simpa using b2
    refine ⟨k, q, by rw [he]; exact b1, l[k], List.getElem?_eq_getElem hk, by rw [g.readers, List.getElem?_map, List.getElem?_eq_getElem hk]; rfl, ?_, ?_⟩
    · simpa using b3
    · rw [List.map_take]; exact b4
  · rw [he]
    exact (Aggregation.findJoinReader_spec (l.map fun p => part t (some u.name) p.1) pos).2 (by rw [← hlen]; exact hpos)

/-- Dimensions of variables exist, unless there is a new dimension. -/
theorem C105_shapes_partial {t : Kind} {jd : String} {jv : List String} {c0 : DS R D V CS} {l : List (DS R D V CS × String)} {s : State R D V CS} (hl : l ≠ [])
    (hp : Proper t jd l) (ht : t ≠ .new) (h : addReaders t jd l (start c0 t jv) = (s, .ok ())) :
    ∀ v ∈ s.cdm.vars, ∀ n ∈ v.shape, ∃ d ∈ s.cdm.dims, d.name = n := by
  have g := good_addReaders hl hp h
  intro v hv n hn
  rcases g.covered v.name (by rw [hasVariable_iff]; exact List.mem_map_of_mem hv) with h' | h'
  · obtain ⟨p, hpl, w, hw, hwn, a1, a2⟩ := g.joins v hv h'
    cases t with
    | new => exact absurd rfl ht
    | union => exact absurd a2 id
    | existing =>
      obtain ⟨rfl, u, b1, b2, b3, b4⟩ := a2
      by_cases hx : n = u.name
      · exact ⟨u, (unl_of b1).1, hx.symm⟩
      · obtain ⟨d, hd, -, -, c1, -⟩ := b4 n hn hx
        exact ⟨d, hd, c1⟩
  · obtain ⟨k, hk⟩ := Option.isSome_iff_exists.1 h'
    obtain ⟨-, p, -, w, -, a4, a5, -, a7⟩ := g.prov _ k hk
    rw [Inv.var_eq g.inv a5 hv a4] at a7
    obtain ⟨d, hd, -, -, b1, -⟩ := a7 n hn
    exact ⟨d, hd, b1⟩

/-! ## Coordinate values -/

theorem sum_flatten : ∀ (l : List (List String)), l.flatten.length = (l.map List.length).sum
  | [] => rfl
  | a :: l => by rw [List.flatten_cons, List.length_append, sum_flatten l]; rfl

/-- If every reader that adds to the joined dimension has coordinate values, then there are as many as positions, in the order of the readers. -/
theorem C105_coordinates {t : Kind} {jd : String} {jv : List String} {c0 : DS R D V CS} {l : List (DS R D V CS × String)} {s : State R D V CS} (hl : l ≠ [])
    (hp : Proper t jd l) (ht : t ≠ .union) (h : addReaders t jd l (start c0 t jv) = (s, .ok ())) {u : Dim} (hu : u ∈ s.cdm.dims) (huu : u.unlimited = true)
    (hall : ∀ p ∈ l, part t (some u.name) p.1 ≠ 0 → tokens p.2 ≠ []) :
    s.coords.length = u.length ∧
      s.coords = (l.flatMap fun p => if t = .existing ∧ (getUnlimitedDim p.1).map (·.name) ≠ some u.name then [] else tokens p.2) := by
  have g := good_addReaders hl hp h
  have hu1 : getUnlimitedDim s.cdm = some u := by
    obtain ⟨u', hu'⟩ := Option.isSome_iff_exists.1 (getUnlimitedDim_isSome.2 ⟨u, hu, huu⟩)
    rw [hu', g.one u' (unl_of hu').1 u hu (unl_of hu').2 huu]
  have hn : udName t jd l = some u.name := by rw [← g.uname ht, hu1]; rfl
  have hc : ∀ p : DS R D V CS × String, coordOf t (some u.name) p =
      if t = .existing ∧ (getUnlimitedDim p.1).map (·.name) ≠ some u.name then [] else tokens p.2 := fun p => by
    cases t with
    | union => exact absurd rfl ht
    | new => simp [coordOf]
    | existing =>
      cases hx : getUnlimitedDim p.1 with
      | none => simp [coordOf, hx]
      | some a =>
        by_cases hy : a.name = u.name <;> simp [coordOf, hx, hy]
  constructor
  · rw [(C105_length hl hp ht h hu huu).1, g.coords, hn, sum_flatten, List.map_map]
    apply congrArg
    apply List.map_congr_left
    intro p hpl
    have hct := g.counts p hpl
    rw [hn] at hct
    rcases hct with h' | h'
    · simp only [Function.comp, h', List.length_nil]
      by_contra hx
      have hne := hall p hpl (fun hy => hx hy.symm)
      rw [hc p] at h'
      split at h'
      · rename_i hy
        apply hx
        obtain ⟨rfl, hy⟩ := hy
        cases hz : getUnlimitedDim p.1 with
        | none => simp [part, hz]
        | some a =>
          rw [hz, Option.map_some] at hy
          simp [part, hz, hy]
      · exact hne h'
    · exact h'
  · rw [g.coords, hn, List.flatMap_def]
    congr 1
    exact List.map_congr_left fun p _ => hc p

/-- `initAggregation` has a dimension to work on, and changes only the data of the coordinate variable or adds it. -/
theorem C105_init {t : Kind} {jd : String} {jv : List String} {c0 : DS R D V CS} {l : List (DS R D V CS × String)} {s s' : State R D V CS} {q : Res Unit}
    (hl : l ≠ []) (hp : Proper t jd l) (h : addReaders t jd l (start c0 t jv) = (s, .ok ())) {M : Make R D} (hM : ∀ r l, M.ofType r l ≠ .ub)
    (hi : init M t jd s = (s', q)) :
    q ≠ .ub ∧ s'.cdm.dims = s.cdm.dims ∧ s'.readers = s.readers ∧ s'.ends = s.ends ∧
      (s.coords = [] → s' = s) ∧
      (t = .new → s.coords ≠ [] → (q = .throws ↔ ∃ v ∈ s.cdm.vars, v.name = jd) ∧
        (q = .ok () → ∃ b : Body R D, s'.cdm.vars = s.cdm.vars ++ [⟨jd, [jd], b⟩] ∧ b.data = some ((M.numbers s.coords).getD (M.texts s.coords)))) ∧
      (t = .existing → s.coords ≠ [] → q = .ok () → ∀ v' ∈ s'.cdm.vars, ∃ v ∈ s.cdm.vars, v'.name = v.name ∧ v'.shape = v.shape ∧
        ((∃ u ∈ s.cdm.dims, u.unlimited = true ∧ v.name = u.name ∧ ∃ d, M.ofType v.payload.rest s.coords = .ok d ∧ v'.payload = ⟨v.payload.rest, some d⟩) ∨
          ((∀ u ∈ s.cdm.dims, u.unlimited = true → v.name ≠ u.name) ∧ v' = v))) := by
  have g := good_addReaders hl hp h
  unfold init at hi
  split at hi
  · rename_i hc
    cases hi
    exact ⟨by simp, rfl, rfl, rfl, fun _ => rfl, fun _ hx => absurd hc hx, fun _ hx => absurd hc hx⟩
  · rename_i hc
    cases t with
    | union =>
      cases hi
      exact ⟨by simp, rfl, rfl, rfl, fun _ => rfl, fun hx => (by cases hx), fun hx => by cases hx⟩
    | new =>
      simp only at hi
      obtain ⟨b, hi, hbd⟩ : ∃ b : Body R D, ({ s with cdm := (addVariable s.cdm ⟨jd, [jd], b⟩).1 }, (addVariable s.cdm ⟨jd, [jd], b⟩).2) = (s', q) ∧
          b.data = some ((M.numbers s.coords).getD (M.texts s.coords)) := ⟨_, hi, by cases M.numbers s.coords <;> rfl⟩
      by_cases hv : hasVariable s.cdm jd = true
      · have hv' : hasVariable ({ s.cdm with coordsInitialized := false } : DS R D V CS) jd = true := hv
        have e : addVariable s.cdm ⟨jd, [jd], b⟩ = ({ s.cdm with coordsInitialized := false }, .throws) := by simp [addVariable, hv']
        rw [e] at hi
        cases hi
        rw [hasVariable_iff, List.mem_map] at hv
        exact ⟨by simp, rfl, rfl, rfl, fun hx => absurd hx hc, fun _ _ => ⟨⟨fun _ => hv, fun _ => rfl⟩, fun hx => by cases hx⟩, fun hx => by cases hx⟩
      · have hv' : hasVariable ({ s.cdm with coordsInitialized := false } : DS R D V CS) jd = false := Bool.eq_false_iff.2 hv
        have e : addVariable s.cdm ⟨jd, [jd], b⟩ = ({ s.cdm with coordsInitialized := false, vars := s.cdm.vars ++ [⟨jd, [jd], b⟩] }, .ok ()) := by
          simp [addVariable, hv']
        rw [e] at hi
        cases hi
        rw [hasVariable_iff, List.mem_map] at hv
        exact ⟨by simp, rfl, rfl, rfl, fun hx => absurd hx hc, fun _ _ => ⟨⟨fun hx => (by cases hx), fun hx => absurd hx hv⟩, fun _ => ⟨b, rfl, hbd⟩⟩,
          fun hx => by cases hx⟩
    | existing =>
      simp only at hi
      cases hu : getUnlimitedDim s.cdm with
      | none =>
        exfalso
        have hud := g.uname (by simp)
        rw [hu] at hud
        have := g.coords
        rw [← hud] at this
        apply hc
        rw [this]
        apply List.flatten_eq_nil_iff.2
        intro x hx
        obtain ⟨p, -, rfl⟩ := List.mem_map.1 hx
        unfold coordOf
        cases getUnlimitedDim p.1 <;> simp
      | some u =>
        rw [hu] at hi
        simp only at hi
        have honly : ∀ v ∈ s.cdm.dims, v.unlimited = true → v = u := fun v hv hvu => g.one v hv u (unl_of hu).1 hvu (unl_of hu).2
        cases hw : s.cdm.vars.find? fun v => v.name == u.name with
        | none =>
          rw [hw] at hi
          cases hi
          refine ⟨by simp, rfl, rfl, rfl, fun _ => rfl, fun hx => (by cases hx), fun _ _ _ v' hv' => ⟨v', hv', rfl, rfl, .inr ⟨fun u' hu' huu' => ?_, rfl⟩⟩⟩
          rw [honly u' hu' huu']
          have := List.find?_eq_none.1 hw v' hv'
          simpa using this
        | some w =>
          rw [hw] at hi
          simp only at hi
          have hwm := List.mem_of_find?_eq_some hw
          have hwn : w.name = u.name := by simpa using List.find?_some hw
          cases hd : M.ofType w.payload.rest s.coords with
          | ub => exact absurd hd (hM _ _)
          | throws =>
            rw [hd] at hi
            cases hi
            exact ⟨by simp, rfl, rfl, rfl, fun _ => rfl, fun hx => (by cases hx), fun _ _ hx => by cases hx⟩
          | ok d =>
            rw [hd] at hi
            cases hi
            refine ⟨by simp, rfl, rfl, rfl, fun hx => absurd hx hc, fun hx => (by cases hx), fun _ _ _ v' hv' => ?_⟩
            obtain ⟨v, hv, rfl⟩ := List.mem_map.1 hv'
            by_cases hvu : v.name = u.name
            · have : v = w := Inv.var_eq g.inv hv hwm (hvu.trans hwn.symm)
              subst this
              refine ⟨v, hv, by split <;> rfl, by split <;> rfl, .inl ⟨u, (unl_of hu).1, (unl_of hu).2, hvu, d, hd, by rw [if_pos hvu]⟩⟩
            · refine ⟨v, hv, by split <;> rfl, by split <;> rfl, .inr ⟨fun u' hu' huu' => by rw [honly u' hu' huu']; exact hvu, by rw [if_neg hvu]⟩⟩

/-! ## Errors -/

theorem findDim_of {r : DS R D V CS} {n : String} (h : ∃ d ∈ r.dims, d.name = n) : ∃ d, findDim r n = some d := by
  obtain ⟨d, hd, hn⟩ := h
  cases hf : findDim r n with
  | some d => exact ⟨d, rfl⟩
  | none =>
    have := findDim_none hf
    rw [show hasDimension r n = true from (hasDimension_iff r n).2 (List.mem_map.2 ⟨d, hd, hn⟩)] at this
    cases this

theorem joinDims_ok {r : DS R D V CS} {u : String} : ∀ (l : List String) (c : DS R D V CS) (b : Bool), (∀ n ∈ l, ∃ d ∈ r.dims, d.name = n) →
    ∃ c' b', joinDims r u l c b = (c', .ok b')
  | [], c, b, _ => ⟨c, b, rfl⟩
  | n :: l, c, b, h => by
    have hl : ∀ n ∈ l, ∃ d ∈ r.dims, d.name = n := fun m hm => h m (List.mem_cons_of_mem _ hm)
    unfold joinDims
    split
    · exact joinDims_ok l c b hl
    · obtain ⟨d, hd⟩ := findDim_of (h n (by simp))
      rw [hd]
      simp only
      split
      · exact joinDims_ok l _ b hl
      · exact joinDims_ok l c _ hl

theorem unionDims_ok {r : DS R D V CS} : ∀ (l : List String) (c : DS R D V CS) (b : Bool), (∀ n ∈ l, ∃ d ∈ r.dims, d.name = n) →
    ∃ c' b', unionDims r l c b = (c', .ok b')
  | [], c, b, _ => ⟨c, b, rfl⟩
  | n :: l, c, b, h => by
    have hl : ∀ n ∈ l, ∃ d ∈ r.dims, d.name = n := fun m hm => h m (List.mem_cons_of_mem _ hm)
    unfold unionDims
    obtain ⟨d, hd⟩ := findDim_of (h n (by simp))
    rw [hd]
    simp only
    split
    · exact unionDims_ok l c _ hl
    · split
      · exact unionDims_ok l c _ hl
      · exact unionDims_ok l _ b hl

theorem joinExistingVars_ok {r : DS R D V CS} (hf : Fine r) {u : Dim} (hu : getUnlimitedDim r = some u) :
    ∀ (l : List (Var (Body R D))) (s : State R D V CS), (∀ v ∈ l, v ∈ r.vars) → Inv s.cdm → ∃ s', joinExistingVars r u.name l s = (s', .ok ())
  | [], s, _, _ => ⟨s, rfl⟩
  | v :: l, s, hl, hi => by
    have hl' : ∀ w ∈ l, w ∈ r.vars := fun w hw => hl w (List.mem_cons_of_mem _ hw)
    unfold joinExistingVars
    split
    · exact joinExistingVars_ok hf hu l s hl' hi
    · rename_i hv
      split
      · obtain ⟨c, b, e⟩ := joinDims_ok (u := u.name) v.shape s.cdm true (hf.shapes v (hl v (by simp)))
        obtain ⟨g, -, -⟩ := joinDims_grown hf.one (unl_of hu).1 (unl_of hu).2 v.shape s.cdm c true b hi e
        rw [e]
        cases b with
        | false => exact joinExistingVars_ok hf hu l _ hl' g.inv
        | true =>
          have hv' : hasVariable c v.name = false := by
            unfold hasVariable
            rw [g.vars, List.append_nil]
            exact Bool.eq_false_iff.2 hv
          obtain ⟨c2, e1, e2, -⟩ := copyVar_grown g.inv hf.inv hv' (hf.names v (hl v (by simp)))
          simp only [e1]
          exact joinExistingVars_ok hf hu l _ hl' e2.dropData.inv
      · exact joinExistingVars_ok hf hu l s hl' hi

theorem unionVars_ok {r : DS R D V CS} (hf : Fine r) {k : ℕ} : ∀ (l : List (Var (Body R D))) (s : State R D V CS), (∀ v ∈ l, v ∈ r.vars) → Inv s.cdm →
    Covered s → ∃ s', unionVars r k l s = (s', .ok ())
  | [], s, _, _, _ => ⟨s, rfl⟩
  | v :: l, s, hl, hi, hc => by
    have hl' : ∀ w ∈ l, w ∈ r.vars := fun w hw => hl w (List.mem_cons_of_mem _ hw)
    unfold unionVars
    split
    · exact unionVars_ok hf l s hl' hi hc
    · rename_i hv
      split
      · exact unionVars_ok hf l s hl' hi hc
      · rename_i hp
        obtain ⟨c, b, e⟩ := unionDims_ok v.shape s.cdm true (hf.shapes v (hl v (by simp)))
        obtain ⟨g, -, -⟩ := unionDims_grown v.shape s.cdm c true b hi e
        rw [e]
        cases b with
        | false =>
          exact unionVars_ok hf l _ hl' g.inv fun n hn => by
            rw [hasVariable_iff, g.vars, List.append_nil] at hn
            exact hc n (by rw [hasVariable_iff]; exact hn)
        | true =>
          have hv' : hasVariable c v.name = false := by
            unfold hasVariable
            rw [g.vars, List.append_nil]
            by_contra hx
            rcases hc v.name (by simpa [hasVariable] using hx) with h' | h'
            · exact hv (by simpa using h')
            · exact hp h'
          obtain ⟨c2, e1, e2, -⟩ := copyVar_grown g.inv hf.inv hv' (hf.names v (hl v (by simp)))
          simp only [e1]
          have g3 := g.trans e2
          refine unionVars_ok hf l _ hl' e2.inv fun n hn => ?_
          rw [hasVariable_iff, g3.vars] at hn
          simp only [List.nil_append, List.map_append, List.map_cons, List.map_nil, List.mem_append, List.mem_singleton] at hn
          rw [lookup_append, Option.isSome_or]
          rcases hn with hn | rfl
          · rcases hc n (by rw [hasVariable_iff]; exact hn) with h' | h'
            · exact .inl h'
            · exact .inr (by rw [h']; rfl)
          · exact .inr (by simp [List.lookup])

theorem Mid.covered {t : Kind} {jd : String} {jv : List String} {l : List (DS R D V CS × String)} {s0 s s2 : State R D V CS} {p : DS R D V CS × String}
    {vs : List (Var (Body R D))} (m : Mid t jd l p s s2 vs) (hg : Good t jd jv l s0) (hs : s = { s0 with readers := s.readers }) : Covered s2 := by
  intro n hn
  rw [hasVariable_iff, m.vars, List.map_append, List.mem_append] at hn
  rcases hn with hn | hn
  · rw [m.provider]
    have hcdm : s.cdm = s0.cdm := by rw [hs]
    rcases hg.covered n (by rw [hasVariable_iff, ← hcdm]; exact hn) with h' | h'
    · exact .inl ((m.join n).2 (.inl (by rw [hs]; exact h')))
    · exact .inr (by rw [hs]; exact h')
  · obtain ⟨v, hv, rfl⟩ := List.mem_map.1 hn
    exact .inl (m.new v hv).1

/-- The readers agree about which dimensions are unlimited. -/
def SameUnlimited (l : List (DS R D V CS × String)) : Prop :=
  ∀ p ∈ l, ∀ q ∈ l, ∀ d ∈ p.1.dims, ∀ e ∈ q.1.dims, d.name = e.name → d.unlimited = e.unlimited

theorem addOther_ok {t : Kind} {jd : String} {jv : List String} {l : List (DS R D V CS × String)} {s0 : State R D V CS} {p : DS R D V CS × String}
    (hl : l ≠ []) (hg : Good t jd jv l s0) (hf : Fine p.1) (hcv : p.2 = "") (hsame : t = .existing → SameUnlimited (l ++ [p])) :
    ∃ s', addReader t jd p s0 = (s', .ok ()) := by
  unfold addReader
  have hlen : ¬(s0.readers ++ [p.1]).length = 1 := by
    rw [hg.readers]
    cases l with
    | nil => exact absurd rfl hl
    | cons a l => simp
  simp only
  rw [if_neg hlen]
  have hext : ∀ k (s : State R D V CS), ∃ s', extendBy k p.2 s = (s', .ok ()) := fun k s => ⟨_, by unfold extendBy; rw [hcv]; simp; rfl⟩
  have hext' : ∀ k (s : State R D V CS), ∃ s', extendBy k "" s = (s', .ok ()) := fun k s => by rw [← hcv]; exact hext k s
  have key : ∀ f : State R D V CS × Res Unit, (∃ s2, f = (s2, .ok ()) ∧ Covered s2 ∧ Inv s2.cdm) →
      ∃ s', andThen f (unionVars p.1 ((s0.readers ++ [p.1]).length - 1) p.1.vars) = (s', .ok ()) := by
    rintro f ⟨s2, rfl, hc, hi⟩
    exact unionVars_ok hf p.1.vars s2 (fun _ h => h) hi hc
  unfold addOther
  apply key
  cases t with
  | union => exact ⟨_, rfl, hg.covered, hg.inv⟩
  | new =>
    obtain ⟨s1, h1, -⟩ := joinNewVars_grown hf.inv hf.names (jd := jd) p.1.vars { s0 with readers := s0.readers ++ [p.1] } (fun _ hv => hv) hg.inv
    obtain ⟨s2, h2⟩ := hext 1 s1
    have e : andThen (joinNewVars p.1 jd p.1.vars { s0 with readers := s0.readers ++ [p.1] }) (extendBy 1 p.2) = (s2, .ok ()) := by rw [h1]; exact h2
    obtain ⟨vs, m⟩ := mid_new hg rfl hf e
    exact ⟨s2, e, m.covered hg rfl, m.inv⟩
  | existing =>
    have : ∃ s2, joinExisting p.2 p.1 { s0 with readers := s0.readers ++ [p.1] } = (s2, .ok ()) := by
      unfold joinExisting
      have key2 : ∀ (u : Dim) (s : State R D V CS), getUnlimitedDim p.1 = some u → Inv s.cdm →
          ∃ s2, andThen (joinExistingVars p.1 u.name p.1.vars s) (extendBy u.length p.2) = (s2, .ok ()) := fun u s hu hi => by
        obtain ⟨s1, h1⟩ := joinExistingVars_ok hf hu p.1.vars s (fun _ h => h) hi
        rw [h1]
        exact hext _ s1
      cases hu : getUnlimitedDim p.1 with
      | none => exact hext' _ _
      | some u =>
        simp only
        cases ha : getUnlimitedDim s0.cdm with
        | some a =>
          simp only
          split
          · exact hext' _ _
          · exact key2 u _ hu hg.inv
        | none =>
          simp only
          have hnd : hasDimension s0.cdm u.name = false := by
            by_contra hx
            rw [Bool.not_eq_false, hasDimension_iff, List.mem_map] at hx
            obtain ⟨d, hd, hdn⟩ := hx
            rcases hg.dims d hd with h' | ⟨q, hq, e, he, hen, -⟩
            · cases h'.1
            · have := hsame rfl q (List.mem_append_left _ hq) p (by simp) e he u (unl_of hu).1 (hen.trans hdn)
              rw [(unl_of hu).2] at this
              have hun := hg.uname (by simp)
              rw [ha] at hun
              have := List.findSome?_eq_none_iff.1 hun.symm q hq
              rw [Option.map_eq_none_iff] at this
              rw [no_unl this e he] at *
              contradiction
          obtain ⟨q1, q2, -⟩ := addDim_grown (r := p.1) hg.inv (unl_of hu).1 hnd (fun _ e he => no_unl ha e he)
          rw [q1]
          exact key2 u _ hu q2.inv
    obtain ⟨s2, e⟩ := this
    obtain ⟨vs, m⟩ := mid_existing hg rfl hf e
    exact ⟨s2, e, m.covered hg rfl, m.inv⟩

theorem addFirst_ok {t : Kind} {jd : String} {jv : List String} {c0 : DS R D V CS} {p : DS R D V CS × String} (hf : Fine p.1)
    (hjd : t = .new → ∀ d ∈ p.1.dims, d.name ≠ jd) (hcv : p.2 = "") : ∃ s', addReader t jd p (start c0 t jv) = (s', .ok ()) := by
  unfold addReader start
  simp only [List.nil_append, List.length_singleton, if_true]
  have hext : ∀ k cv (s : State R D V CS), cv = "" → ∃ s', extendBy k cv s = (s', .ok ()) := by
    rintro k cv s rfl
    exact ⟨_, by unfold extendBy; simp; rfl⟩
  have hfp : ∀ q : State R D V CS × Res Unit, (∃ s, q = (s, .ok ())) → ∃ s', firstProviders q = (s', .ok ()) := by
    rintro q ⟨s, rfl⟩
    exact ⟨_, rfl⟩
  unfold addFirst
  cases t with
  | union => exact hfp _ ⟨_, rfl⟩
  | existing =>
    simp only
    split
    · exact hfp _ (hext _ _ _ hcv)
    · exact hfp _ (hext _ _ _ rfl)
  | new =>
    have hnd : hasDimension ({ p.1 with dims := limit p.1.dims, coordsInitialized := false } : DS R D V CS) jd = false := by
      by_contra hx
      rw [Bool.not_eq_false, hasDimension_iff] at hx
      simp only at hx
      rw [limit_spec hf.one hf.inv.dims, List.map_map, List.mem_map] at hx
      obtain ⟨d, hd, hdn⟩ := hx
      exact hjd rfl d hd hdn
    have hadd : addDimension ({ p.1 with dims := limit p.1.dims } : DS R D V CS) ⟨jd, 0, true⟩ =
        ({ p.1 with coordsInitialized := false, dims := limit p.1.dims ++ [⟨jd, 0, true⟩] }, .ok ()) := by
      simp [addDimension, hnd]
    simp only
    rw [hadd]
    exact hfp _ (hext _ _ _ hcv)

theorem addReaders_ok_from {t : Kind} {jd : String} {jv : List String} : ∀ (l2 l1 : List (DS R D V CS × String)) (s0 : State R D V CS), l1 ≠ [] →
    Proper t jd l2 → (∀ p ∈ l2, p.2 = "") → (t = .existing → SameUnlimited (l1 ++ l2)) → Good t jd jv l1 s0 → ∃ s', addReaders t jd l2 s0 = (s', .ok ())
  | [], l1, s0, _, _, _, _, _ => ⟨s0, rfl⟩
  | p :: l2, l1, s0, hl, hp, hcv, hsame, hg => by
    obtain ⟨s1, h1⟩ := addOther_ok hl hg (hp p (by simp)).1 (hcv p (by simp)) fun ht a ha b hb =>
      hsame ht a (by rcases List.mem_append.1 ha with h | h <;> simp_all) b (by rcases List.mem_append.1 hb with h | h <;> simp_all)
    obtain ⟨s', h2⟩ := addReaders_ok_from l2 (l1 ++ [p]) s1 (by simp) (fun q hq => hp q (List.mem_cons_of_mem _ hq)) (fun q hq => hcv q (List.mem_cons_of_mem _ hq))
      (by rw [List.append_assoc]; exact hsame) (good_addOther hl hg (hp p (by simp)).1 (hp p (by simp)).2 h1)
    refine ⟨s', ?_⟩
    unfold addReaders
    rw [h1]
    exact h2

/-- Proper readers without coordinate values raise no error; along an existing dimension they have to agree about which dimensions are unlimited. -/
theorem C105_no_error {t : Kind} {jd : String} {jv : List String} {c0 : DS R D V CS} {l : List (DS R D V CS × String)} (hp : Proper t jd l)
    (hcv : ∀ p ∈ l, p.2 = "") (hsame : t = .existing → SameUnlimited l) : ∃ s, addReaders t jd l (start c0 t jv) = (s, .ok ()) := by
  cases l with
  | nil => exact ⟨_, rfl⟩
  | cons p l =>
    obtain ⟨s1, h1⟩ := addFirst_ok (c0 := c0) (jv := jv) (hp p (by simp)).1 (hp p (by simp)).2 (hcv p (by simp))
    obtain ⟨s', h2⟩ := addReaders_ok_from l [p] s1 (by simp) (fun q hq => hp q (List.mem_cons_of_mem _ hq)) (fun q hq => hcv q (List.mem_cons_of_mem _ hq))
      hsame (good_addFirst (hp p (by simp)).1 (hp p (by simp)).2 h1)
    refine ⟨s', ?_⟩
    unfold addReaders
    rw [h1]
    exact h2

/-! ## NcML -/

/-- The readers of the elements, each with its coordinate values. -/
def nodeReaders (t : Kind) (l : List (DS R D V CS × String)) (idx : ℕ) : List (DS R D V CS × String) :=
  l.mapIdx fun i p => (p.1, if p.2 = "" ∧ t = .new then "location_" ++ toString (idx + i) else p.2)

theorem addNodes_readers {t : Kind} {jd : String} : ∀ (l : List (DS R D V CS × String)) (idx : ℕ) (s : State R D V CS),
    addNodes t jd (l.map fun p => ⟨.ok p.1, p.2⟩) idx s = addReaders t jd (nodeReaders t l idx) s
  | [], _, _ => rfl
  | p :: l, idx, s => by
    have e : nodeReaders t (p :: l) idx = (p.1, nodeCoord t idx p.2) :: nodeReaders t l (idx + 1) := by
      unfold nodeReaders nodeCoord
      rw [List.mapIdx_cons]
      congr 1
      simp only [Nat.add_right_comm, Nat.add_assoc]
    rw [e, List.map_cons]
    unfold addNodes addReaders
    simp only
    congr 1
    funext s'
    exact addNodes_readers l (idx + 1) s'

/-- A document with one aggregation of a known type whose elements can be read: its dataset is that of the readers of the elements, in their order; with
a new dimension an element without coordinate values gets the value `location_` with its number. -/
theorem C105_elements (M : Make R D) (empty : DS R D V CS) (type dim : String) (vars : List String) (l : List (DS R D V CS × String))
    (loc : Option (Res (DS R D V CS))) {t : Kind} (ht : (type, t) ∈ [("joinExisting", Kind.existing), ("joinNew", .new), ("union", .union)])
    {s s' : State R D V CS} (h : addReaders t dim (nodeReaders t l 0) (start empty t vars) = (s, .ok ())) (h' : init M t dim s = (s', .ok ())) :
    ncml M empty [⟨type, dim, vars, l.map fun p => ⟨.ok p.1, p.2⟩, []⟩] loc = .ok s'.cdm := by
  have hk : kindOf type = .ok t := by
    simp only [List.mem_cons, Prod.mk.injEq, List.not_mem_nil, or_false] at ht
    rcases ht with ⟨rfl, rfl⟩ | ⟨rfl, rfl⟩ | ⟨rfl, rfl⟩ <;> decide +kernel
  unfold ncml
  simp only [hk, Res.ok_bind, addNodes_readers, h, andThen, addScans, h']

/-- Errors: an aggregation of another type, and an element that cannot be read. -/
theorem C105_element_errors (M : Make R D) (empty : DS R D V CS) (a : Aggregation R D V CS) (loc : Option (Res (DS R D V CS))) :
    (a.type ∉ ["joinExisting", "joinNew", "union"] → ncml M empty [a] loc = .throws) ∧
      (a.type ∈ ["joinExisting", "joinNew", "union"] → (∃ rest cv, a.nodes = ⟨.throws, cv⟩ :: rest) → ncml M empty [a] loc = .throws) := by
  constructor
  · intro h
    simp only [List.mem_cons, List.not_mem_nil, or_false, not_or] at h
    have hk : kindOf a.type = .throws := by simp [kindOf, h]
    unfold ncml
    simp only [hk, Res.throws_bind]
  · rintro h ⟨rest, cv, hn⟩
    have : ∃ t, kindOf a.type = .ok t := by
      simp only [List.mem_cons, List.not_mem_nil, or_false] at h
      rcases h with h | h | h
      · exact ⟨.existing, by rw [h]; decide +kernel⟩
      · exact ⟨.new, by rw [h]; decide +kernel⟩
      · exact ⟨.union, by rw [h]; decide +kernel⟩
    obtain ⟨t, ht⟩ := this
    unfold ncml
    simp only [ht, Res.ok_bind, hn, addNodes, andThen]

/-- Without an aggregation the document has the dataset of its location. -/
theorem C105_location (M : Make R D) (empty : DS R D V CS) (r : Res (DS R D V CS)) :
    ncml M empty [] (some r) = r ∧ ncml M empty [] none = .ok empty := ⟨rfl, rfl⟩

/-- Of several aggregations none is used, although it is reported that the first one is. -/
theorem C105_several_aggregations (M : Make R D) (empty : DS R D V CS) (a b : Aggregation R D V CS) (l : List (Aggregation R D V CS))
    (loc : Option (Res (DS R D V CS))) : ncml M empty (a :: b :: l) loc = .ok empty := rfl

/-! ## Cases -/

/-- A dataset with the temperature on the given dimensions. -/
def file (dims : List Dim) (vars : List (Var (Body ℕ (List ℕ)))) : DS ℕ (List ℕ) String Unit := ⟨fun _ => none, vars, dims, false, ()⟩

def june : DS ℕ (List ℕ) String Unit := file [⟨"x", 3, false⟩, ⟨"time", 2, true⟩] [⟨"x", ["x"], 6, some [1, 2, 3]⟩, ⟨"time", ["time"], 6, some [1, 2]⟩, ⟨"t2m", ["x", "time"], 5, none⟩]

def july : DS ℕ (List ℕ) String Unit := file [⟨"time", 4, true⟩, ⟨"x", 3, false⟩, ⟨"y", 7, false⟩]
  [⟨"time", ["time"], 6, none⟩, ⟨"rain", ["x", "time"], 5, none⟩, ⟨"hill", ["y"], 5, none⟩]

theorem fine_file {dims : List Dim} {vars : List (Var (Body ℕ (List ℕ)))} (h1 : (vars.map (·.name)).Nodup) (h2 : (dims.map (·.name)).Nodup)
    (h3 : ∀ v ∈ vars, ∀ n ∈ v.shape, ∃ d ∈ dims, d.name = n) (h4 : ∀ d ∈ dims, ∀ e ∈ dims, d.unlimited = true → e.unlimited = true → d = e)
    (h5 : ∀ v ∈ vars, v.name ≠ globalNS) : Fine (file dims vars) :=
  ⟨⟨h1, h2, fun _ _ h => (by cases h), fun _ h => absurd rfl h⟩, h3, h4, h5⟩

theorem proper_summer (t : Kind) : Proper t "run" [(june, "1 2"), (july, "3 4 5 6")] := by
  intro p hp
  simp only [List.mem_cons, List.not_mem_nil, or_false] at hp
  rcases hp with rfl | rfl
  · exact ⟨fine_file (by decide +kernel) (by decide +kernel) (by decide +kernel) (by decide +kernel) (by decide +kernel), fun _ => by decide +kernel⟩
  · exact ⟨fine_file (by decide +kernel) (by decide +kernel) (by decide +kernel) (by decide +kernel) (by decide +kernel), fun _ => by decide +kernel⟩

/-- Two files along the time: six times, with the variables of both. -/
example : let s := (addReaders .existing "" [(june, "1 2"), (july, "3 4 5 6")] (start (file [] []) .existing [])).1
    (addReaders .existing "" [(june, "1 2"), (july, "3 4 5 6")] (start (file [] []) .existing [])).2 = .ok () ∧
      s.cdm.dims = [⟨"x", 3, false⟩, ⟨"time", 6, true⟩, ⟨"y", 7, false⟩] ∧
      s.cdm.vars = [⟨"x", ["x"], 6, some [1, 2, 3]⟩, ⟨"time", ["time"], 6, none⟩, ⟨"t2m", ["x", "time"], 5, none⟩, ⟨"rain", ["x", "time"], 5, none⟩,
        ⟨"hill", ["y"], 5, none⟩] ∧
      s.join = ["time", "t2m", "rain"] ∧ s.provider = [("x", 0), ("hill", 1)] ∧ s.ends = [2, 6] ∧ s.coords = ["1", "2", "3", "4", "5", "6"] := by
  decide +kernel

/-- Two files with a new dimension. -/
example : let s := (addReaders .new "run" [(june, "6"), (july, "7")] (start (file [] []) .new ["t2m", "rain"])).1
    (addReaders .new "run" [(june, "6"), (july, "7")] (start (file [] []) .new ["t2m", "rain"])).2 = .ok () ∧
      s.cdm.dims = [⟨"x", 3, false⟩, ⟨"time", 2, false⟩, ⟨"run", 2, true⟩, ⟨"y", 7, false⟩] ∧
      s.cdm.vars = [⟨"x", ["x"], 6, some [1, 2, 3]⟩, ⟨"time", ["time"], 6, some [1, 2]⟩, ⟨"t2m", ["x", "time", "run"], 5, none⟩,
        ⟨"rain", ["x", "time", "run"], 5, none⟩, ⟨"hill", ["y"], 5, none⟩] ∧
      s.provider = [("x", 0), ("time", 0), ("hill", 1)] ∧ s.ends = [1, 2] ∧ s.coords = ["6", "7"] := by
  decide +kernel

/-- A union of them: the rain is on times of another number. -/
example : let s := (addReaders .union "" [(june, ""), (july, "")] (start (file [] []) .union [])).1
    (addReaders .union "" [(june, ""), (july, "")] (start (file [] []) .union [])).2 = .ok () ∧
      s.cdm.vars.map (·.name) = ["x", "time", "t2m", "hill"] ∧ s.provider = [("x", 0), ("time", 0), ("t2m", 0), ("hill", 1)] := by
  decide +kernel

example : SameUnlimited [(june, ""), (july, "")] := by
  intro p hp q hq
  simp only [List.mem_cons, List.not_mem_nil, or_false] at hp hq
  rcases hp with rfl | rfl <;> rcases hq with rfl | rfl <;> decide +kernel

/-! ## What does not hold -/

/-- With a new dimension a variable may be on a dimension that does not exist: those of joined variables of further readers are not added. -/
theorem C105_new_dimensions_missing : ∃ l : List (DS ℕ (List ℕ) String Unit × String), Proper .new "run" l ∧ ∃ s,
    addReaders .new "run" l (start (file [] []) .new ["t2m", "hill"]) = (s, .ok ()) ∧
      ∃ v ∈ s.cdm.vars, v.name = "hill" ∧ ∃ n ∈ v.shape, ∀ d ∈ s.cdm.dims, d.name ≠ n := by
  refine ⟨[(june, "1 2"), (july, "3 4 5 6")].map fun p => (p.1, ""), fun p hp => ?_, _, rfl, ⟨"hill", ["y", "run"], 5, none⟩, by decide +kernel, rfl, "y", by simp, ?_⟩
  · obtain ⟨q, hq, rfl⟩ := List.mem_map.1 hp
    exact proper_summer .new q hq
  · decide +kernel

/-- With a new dimension a joined variable of which the reader has data in memory keeps them, so it has data of one reader only. -/
theorem C105_new_keeps_data : ∃ l : List (DS ℕ (List ℕ) String Unit × String), Proper .new "run" l ∧ ∃ s,
    addReaders .new "run" l (start (file [] []) .new ["time"]) = (s, .ok ()) ∧ (⟨"time", ["time", "run"], 6, some [1, 2]⟩ : Var (Body ℕ (List ℕ))) ∈ s.cdm.vars ∧
      ⟨"run", 2, true⟩ ∈ s.cdm.dims := by
  refine ⟨[(june, "1 2"), (july, "3 4 5 6")].map fun p => (p.1, ""), fun p hp => ?_, _, rfl, by decide +kernel, by decide +kernel⟩
  obtain ⟨q, hq, rfl⟩ := List.mem_map.1 hp
  exact proper_summer .new q hq

/-- Coordinate values of only some of the readers: there are fewer than positions. -/
theorem C105_coordinates_missing : ∃ l : List (DS ℕ (List ℕ) String Unit × String), Proper .existing "" l ∧ ∃ s,
    addReaders .existing "" l (start (file [] []) .existing []) = (s, .ok ()) ∧ ⟨"time", 6, true⟩ ∈ s.cdm.dims ∧ s.coords = ["3", "4", "5", "6"] := by
  refine ⟨[(june, ""), (july, "3 4 5 6")], fun p hp => ?_, _, rfl, by decide +kernel, by decide +kernel⟩
  simp only [List.mem_cons, List.not_mem_nil, or_false] at hp
  rcases hp with rfl | rfl
  · exact ⟨(proper_summer .existing (june, "1 2") (by simp)).1, fun hx => by cases hx⟩
  · exact ⟨(proper_summer .existing (july, "3 4 5 6") (by simp)).1, fun hx => by cases hx⟩

/-- A further reader with an unlimited dimension of which the aggregation has a limited one raises an error. -/
theorem C105_unlimited_later : ∃ l : List (DS ℕ (List ℕ) String Unit × String), Proper .existing "" l ∧ (∀ p ∈ l, p.2 = "") ∧
    (addReaders .existing "" l (start (file [] []) .existing [])).2 = .throws := by
  refine ⟨[(file [⟨"time", 2, false⟩] [], ""), (june, "")], fun p hp => ?_, by simp, by decide +kernel⟩
  simp only [List.mem_cons, List.not_mem_nil, or_false] at hp
  rcases hp with rfl | rfl
  · exact ⟨fine_file (by decide +kernel) (by decide +kernel) (by decide +kernel) (by decide +kernel) (by decide +kernel), fun hx => by cases hx⟩
  · exact ⟨(proper_summer .existing (june, "1 2") (by simp)).1, fun hx => by cases hx⟩

/-- All files of a scan get the same coordinate value, the number of the scan. -/
theorem C105_scan_values {t : Kind} {jd : String} (idx : ℕ) : ∀ (l : List (DS R D V CS)) (s s' : State R D V CS),
    addReaders t jd (l.map fun r => (r, if t = .new then "location_" ++ toString idx else "")) s = (s', .ok ()) →
      addFiles t jd idx (l.map .ok) s = (s', .ok ())
  | [], _, _, h => h
  | r :: l, s, s', h => by
    rw [List.map_cons] at h
    obtain ⟨s1, h1, h2⟩ := andThen_ok h
    rw [List.map_cons]
    unfold addFiles
    simp only [h1]
    exact C105_scan_values idx l s1 s' h2

/-- A scanned file that raises an error stays in the list of readers but has no end position: the positions then belong to the wrong readers.  Here the
first file has a dimension with the name of the new one, and the position of the second one belongs to the first. -/
theorem C105_scan_error : ∃ (bad : DS ℕ (List ℕ) String Unit) (s : State ℕ (List ℕ) String Unit), Fine bad ∧ Fine june ∧
    addFiles .new "run" 0 [.ok bad, .ok june] (start (file [] []) .new ["t2m"]) = (s, .ok ()) ∧ s.readers[0]? = some bad ∧ s.readers[1]? = some june ∧
      (⟨"t2m", ["x", "time", "run"], 5, none⟩ : Var (Body ℕ (List ℕ))) ∈ s.cdm.vars ∧ Aggregation.findJoinReader s.ends 0 = some (0, 0) := by
  refine ⟨file [⟨"run", 2, false⟩] [], _, fine_file (by decide +kernel) (by decide +kernel) (by decide +kernel) (by decide +kernel) (by decide +kernel),
    (proper_summer .new (june, "1 2") (by simp)).1, rfl, rfl, rfl, by decide +kernel, by decide +kernel⟩

end Fimex.AggSet
