import Verif.Grib.Dataset
import Verif.Grib.IndexProps

/-! # Lemmas on the dataset of GRIB messages: steps only add, and keep the dataset consistent -/

namespace Fimex.GribData
open Fimex.Cdm Fimex.Grib Fimex.Tables
set_option linter.unusedSectionVars false

variable {G K V : Type}

theorem bind_ok {α β : Type} {r : Res α} {f : α → Res β} {b : β} (h : r.bind f = .ok b) : ∃ a, r = .ok a ∧ f a = .ok b := by
  cases r with
  | ok a => exact ⟨a, rfl, h⟩
  | throws => cases h
  | ub => cases h

/-- Steps only add. -/
structure Grows (c c' : DS K V) : Prop where
  dims : c.dims <+: c'.dims
  vars : c.vars <+: c'.vars
  attrs : ∀ n, getAttributes c n <+: getAttributes c' n

theorem Grows.refl (c : DS K V) : Grows c c := ⟨List.prefix_refl _, List.prefix_refl _, fun _ => List.prefix_refl _⟩

theorem Grows.trans {a b c : DS K V} (h : Grows a b) (g : Grows b c) : Grows a c :=
  ⟨h.dims.trans g.dims, h.vars.trans g.vars, fun n => (h.attrs n).trans (g.attrs n)⟩

theorem Grows.dim {c c' : DS K V} (h : Grows c c') {n : String} {d : Dim} (e : getDimension c n = .ok d) : getDimension c' n = .ok d := by
  obtain ⟨l, hl⟩ := h.dims
  unfold getDimension at *
  rw [← hl, List.find?_append]
  cases hf : c.dims.find? fun d => d.name == n with
  | none => rw [hf] at e; cases e
  | some x => rw [hf] at e; simpa using e

theorem Grows.var {c c' : DS K V} (h : Grows c c') {n : String} {v : Var (Payload K)} (e : getVariable c n = .ok v) :
    getVariable c' n = .ok v := by
  obtain ⟨l, hl⟩ := h.vars
  unfold getVariable at *
  rw [← hl, List.find?_append]
  cases hf : c.vars.find? fun d => d.name == n with
  | none => rw [hf] at e; cases e
  | some x => rw [hf] at e; simpa using e

theorem hasDim_iff {c : DS K V} {n : String} : hasDimension c n = true ↔ ∃ d, getDimension c n = .ok d := by
  unfold hasDimension getDimension
  cases hf : c.dims.find? fun d => d.name == n with
  | none =>
    simp only [List.find?_eq_none, beq_iff_eq] at hf
    simpa using hf
  | some x =>
    have h1 := List.mem_of_find?_eq_some hf
    have h2 := List.find?_some hf
    simp only [List.any_eq_true]
    exact ⟨fun _ => ⟨x, rfl⟩, fun _ => ⟨x, h1, h2⟩⟩

theorem hasDim_names {c : DS K V} {n : String} : hasDimension c n = false ↔ n ∉ c.dims.map (·.name) := by
  unfold hasDimension
  rw [List.any_eq_false]
  simp

theorem hasVar_names {c : DS K V} {n : String} : hasVariable c n = false ↔ n ∉ c.vars.map (·.name) := by
  unfold hasVariable
  rw [List.any_eq_false]
  simp

theorem Grows.hasDim {c c' : DS K V} (h : Grows c c') {n : String} (e : hasDimension c n = true) : hasDimension c' n = true := by
  obtain ⟨d, hd⟩ := hasDim_iff.1 e
  exact hasDim_iff.2 ⟨d, h.dim hd⟩

/-- Names are unique, shapes have their dimensions, attributes their variables. -/
structure Wf (c : DS K V) : Prop where
  dims : (c.dims.map (·.name)).Nodup
  vars : (c.vars.map (·.name)).Nodup
  shapes : ∀ v ∈ c.vars, ∀ d ∈ v.shape, hasDimension c d = true
  attrs : ∀ n, n ≠ globalNS → hasVariable c n = false → getAttributes c n = []

theorem wf_empty : Wf (⟨fun _ => none, [], [], false, ()⟩ : DS K V) := ⟨by simp, by simp, by simp, by simp [getAttributes]⟩

/-- What a step does. -/
structure Good (c c' : DS K V) : Prop where
  grows : Grows c c'
  wf : Wf c → Wf c'

theorem Good.refl (c : DS K V) : Good c c := ⟨.refl c, id⟩

theorem Good.trans {a b c : DS K V} (h : Good a b) (g : Good b c) : Good a c := ⟨h.grows.trans g.grows, fun w => g.wf (h.wf w)⟩

/-! ## Single steps -/

theorem newVar_ok {c c' : DS K V} {n : String} {t : DataType} {sh : List String} {d : Option (Data K)} (h : newVar c n t sh d = .ok c') :
    hasVariable c n = false ∧ c'.vars = c.vars ++ [⟨n, sh, ⟨t, d⟩⟩] ∧ c'.dims = c.dims ∧ c'.attrs = c.attrs ∧ ∀ x, d = some x → x.type = t := by
  have key : ∀ v : Var (Payload K), ran (addVariable c v) = .ok c' → hasVariable c v.name = false ∧ c'.vars = c.vars ++ [v] ∧ c'.dims = c.dims ∧
      c'.attrs = c.attrs := by
    intro v hv
    unfold ran addVariable at hv
    cases hb : hasVariable c v.name with
    | true =>
      have : hasVariable { c with coordsInitialized := false } v.name = true := hb
      simp [this, Res.bind] at hv
    | false =>
      have : hasVariable { c with coordsInitialized := false } v.name = false := hb
      simp [this, Res.bind] at hv
      subst hv
      exact ⟨rfl, rfl, rfl, rfl⟩
  unfold newVar at h
  cases d with
  | none =>
    obtain ⟨a, b, e, f⟩ := key _ h
    exact ⟨a, b, e, f, by simp⟩
  | some d =>
    dsimp only at h
    by_cases ht : d.type = t
    · rw [if_pos ht] at h
      obtain ⟨a, b, e, f⟩ := key _ h
      exact ⟨a, b, e, f, by rintro _ ⟨⟩; exact ht⟩
    · rw [if_neg ht] at h; cases h

theorem newDim_ok {c c' : DS K V} {n : String} {k : ℕ} {u : Bool} (h : newDim c n k u = .ok c') :
    hasDimension c n = false ∧ c'.dims = c.dims ++ [⟨n, k, u⟩] ∧ c'.vars = c.vars ∧ c'.attrs = c.attrs := by
  unfold newDim ran addDimension at h
  cases hb : hasDimension c n with
  | true =>
    have : hasDimension { c with coordsInitialized := false } n = true := hb
    simp [this, Res.bind] at h
  | false =>
    have : hasDimension { c with coordsInitialized := false } n = false := hb
    simp [this, Res.bind] at h
    subst h
    exact ⟨rfl, rfl, rfl, rfl⟩

theorem newAttrs_ok : ∀ {l : List (Attr V)} {c c' : DS K V} {n : String}, newAttrs c n l = .ok c' →
    c'.vars = c.vars ∧ c'.dims = c.dims ∧ getAttributes c' n = getAttributes c n ++ l ∧ (∀ m, m ≠ n → getAttributes c' m = getAttributes c m) ∧
      (l = [] ∨ n = globalNS ∨ hasVariable c n = true)
  | [], c, c', n, h => by
    unfold newAttrs ran addAttributes at h
    simp [Res.bind] at h
    subst h
    simp
  | a :: l, c, c', n, h => by
    unfold newAttrs ran addAttributes at h
    cases hb : addAttribute c n a with
    | mk c1 r =>
      rw [hb] at h
      cases r with
      | throws => simp [Res.bind] at h
      | ub => simp [Res.bind] at h
      | ok u =>
        have ih := newAttrs_ok (l := l) (c := c1) (c' := c') (n := n) h
        unfold addAttribute at hb
        dsimp only at hb
        by_cases h1 : n ≠ globalNS ∧ (!hasVariable { c with coordsInitialized := false } n) = true
        · rw [if_pos h1] at hb; cases hb
        · rw [if_neg h1] at hb
          have h1' : n = globalNS ∨ hasVariable c n = true := by
            by_cases hg : n = globalNS
            · exact .inl hg
            · right
              have : ¬ (!hasVariable { c with coordsInitialized := false } n) = true := fun e => h1 ⟨hg, e⟩
              have h2 : hasVariable { c with coordsInitialized := false } n = hasVariable c n := rfl
              rw [h2] at this
              cases hq : hasVariable c n with
              | true => rfl
              | false => rw [hq] at this; simp at this
          split at hb
          · cases hb
          · injection hb with hb _
            subst hb
            obtain ⟨i1, i2, i3, i4, _⟩ := ih
            refine ⟨i1, i2, ?_, ?_, .inr h1'⟩
            · rw [i3]; simp [getAttributes]
            · intro m hm; rw [i4 m hm]; simp [getAttributes, hm]

theorem good_newVar {c c' : DS K V} {n : String} {t : DataType} {sh : List String} {d : Option (Data K)} (h : newVar c n t sh d = .ok c')
    (hs : ∀ x ∈ sh, hasDimension c x = true) : Good c c' := by
  obtain ⟨h0, h1, h2, h3, _⟩ := newVar_ok h
  have hd : ∀ x, hasDimension c' x = hasDimension c x := fun x => by unfold hasDimension; rw [h2]
  refine ⟨⟨by rw [h2]; exact List.prefix_refl _, ⟨_, h1.symm⟩, fun m => by unfold getAttributes; rw [h3]; exact List.prefix_refl _⟩, fun w => ⟨by rw [h2]; exact w.dims, ?_, ?_, ?_⟩⟩
  · rw [h1, List.map_append, List.nodup_append]
    refine ⟨w.vars, by simp, ?_⟩
    intro a ha b hb e
    simp at hb
    subst hb
    exact hasVar_names.1 h0 (e ▸ ha)
  · intro v hv x hx
    rw [hd]
    rw [h1, List.mem_append] at hv
    rcases hv with hv | hv
    · exact w.shapes v hv x hx
    · simp at hv; subst hv; exact hs x hx
  · intro m hm hv
    have : hasVariable c m = false := by
      rw [hasVar_names] at hv ⊢
      rw [h1, List.map_append, List.mem_append] at hv
      exact fun e => hv (.inl e)
    unfold getAttributes
    rw [h3]
    exact w.attrs m hm this

theorem getVar_new {c c' : DS K V} {n : String} {t : DataType} {sh : List String} {d : Option (Data K)} (h : newVar c n t sh d = .ok c') :
    getVariable c' n = .ok ⟨n, sh, ⟨t, d⟩⟩ := by
  obtain ⟨h0, h1, _⟩ := newVar_ok h
  unfold getVariable
  rw [h1, List.find?_append]
  have : c.vars.find? (fun v => v.name == n) = none := by
    rw [List.find?_eq_none]
    intro v hv e
    simp at e
    exact hasVar_names.1 h0 (List.mem_map.2 ⟨v, hv, e⟩)
  rw [this]
  simp

theorem good_newDim {c c' : DS K V} {n : String} {k : ℕ} {u : Bool} (h : newDim c n k u = .ok c') : Good c c' := by
  obtain ⟨h0, h1, h2, h3⟩ := newDim_ok h
  have g : Grows c c' := ⟨⟨_, h1.symm⟩, by rw [h2]; exact List.prefix_refl _, fun m => by unfold getAttributes; rw [h3]; exact List.prefix_refl _⟩
  refine ⟨g, fun w => ⟨?_, by rw [h2]; exact w.vars, ?_, ?_⟩⟩
  · rw [h1, List.map_append, List.nodup_append]
    refine ⟨w.dims, by simp, ?_⟩
    intro a ha b hb e
    simp at hb
    subst hb
    exact hasDim_names.1 h0 (e ▸ ha)
  · intro v hv x hx
    rw [h2] at hv
    exact g.hasDim (w.shapes v hv x hx)
  · intro m hm hv
    unfold getAttributes
    rw [h3]
    refine w.attrs m hm ?_
    unfold hasVariable at *
    rw [← h2]; exact hv

theorem getDim_new {c c' : DS K V} {n : String} {k : ℕ} {u : Bool} (h : newDim c n k u = .ok c') : getDimension c' n = .ok ⟨n, k, u⟩ := by
  obtain ⟨h0, h1, _⟩ := newDim_ok h
  unfold getDimension
  rw [h1, List.find?_append]
  have : c.dims.find? (fun v => v.name == n) = none := by
    rw [List.find?_eq_none]
    intro v hv e
    simp at e
    exact hasDim_names.1 h0 (List.mem_map.2 ⟨v, hv, e⟩)
  rw [this]
  simp

theorem good_newAttrs {l : List (Attr V)} {c c' : DS K V} {n : String} (h : newAttrs c n l = .ok c') : Good c c' := by
  obtain ⟨h1, h2, h3, h4, h5⟩ := newAttrs_ok h
  refine ⟨⟨by rw [h2]; exact List.prefix_refl _, by rw [h1]; exact List.prefix_refl _, fun m => ?_⟩, fun w => ⟨by rw [h2]; exact w.dims, by rw [h1]; exact w.vars, ?_, ?_⟩⟩
  · by_cases hm : m = n
    · subst hm; exact ⟨l, h3.symm⟩
    · rw [h4 m hm]; exact List.prefix_refl _
  · intro v hv x hx
    have := w.shapes v (h1 ▸ hv) x hx
    unfold hasDimension at *
    rw [h2]; exact this
  · intro m hm hv
    have hv' : hasVariable c m = false := by
      unfold hasVariable at *
      rw [← h1]; exact hv
    by_cases hmn : m = n
    · subst hmn
      rw [h3, w.attrs m hm hv']
      rcases h5 with h5 | h5 | h5
      · simp [h5]
      · exact absurd h5 hm
      · rw [h5] at hv'; cases hv'
    · rw [h4 m hmn]; exact w.attrs m hm hv'

/-- Data that are set to a variable that was not there at the start. -/
theorem good_setData {c0 c c' : DS K V} {n : String} {d : Data K} (g : Good c0 c) (h0 : hasVariable c0 n = false) (h : setData c n d = .ok c') :
    Good c0 c' := by
  unfold setData at h
  cases hf : c.vars.find? fun v => v.name == n with
  | none => rw [hf] at h; cases h
  | some v =>
    rw [hf] at h
    dsimp only at h
    by_cases ht : d.type = v.payload.type
    · rw [if_pos ht] at h
      injection h with h
      subst h
      have hnames : ∀ l : List (Var (Payload K)),
          (l.map fun w => if w.name = n then { w with payload := { w.payload with data := some d } } else w).map (·.name) = l.map (·.name) := by
        intro l
        rw [List.map_map]
        apply List.map_congr_left
        intro w _
        simp only [Function.comp]
        split <;> rfl
      refine ⟨⟨g.grows.dims, ?_, g.grows.attrs⟩, fun w => ⟨(g.wf w).dims, ?_, ?_, ?_⟩⟩
      · obtain ⟨l, hl⟩ := g.grows.vars
        dsimp only
        rw [← hl, List.map_append]
        refine ⟨l.map fun w => if w.name = n then { w with payload := { w.payload with data := some d } } else w, ?_⟩
        congr 1
        conv_lhs => rw [← List.map_id c0.vars]
        apply List.map_congr_left
        intro w hw
        rw [if_neg, id]
        intro e
        exact hasVar_names.1 h0 (List.mem_map.2 ⟨w, hw, e⟩)
      · dsimp only
        rw [hnames]
        exact (g.wf w).vars
      · intro x hx y hy
        dsimp only at hx
        rw [List.mem_map] at hx
        obtain ⟨z, hz, rfl⟩ := hx
        have : y ∈ z.shape := by
          split at hy <;> exact hy
        exact (g.wf w).shapes z hz y this
      · intro m hm hv
        refine (g.wf w).attrs m hm ?_
        rw [hasVar_names] at hv ⊢
        dsimp only at hv
        rw [hnames] at hv
        exact hv
    · rw [if_neg ht] at h; cases h

theorem getVar_setData {c c' : DS K V} {n : String} {d : Data K} (h : setData c n d = .ok c') :
    ∃ v, getVariable c n = .ok v ∧ d.type = v.payload.type ∧ getVariable c' n = .ok ⟨v.name, v.shape, ⟨v.payload.type, some d⟩⟩ ∧ c'.dims = c.dims ∧
      c'.attrs = c.attrs := by
  unfold setData at h
  unfold getVariable
  cases hf : c.vars.find? fun v => v.name == n with
  | none => rw [hf] at h; cases h
  | some v =>
    rw [hf] at h
    dsimp only at h
    by_cases ht : d.type = v.payload.type
    · rw [if_pos ht] at h
      injection h with h
      subst h
      refine ⟨v, rfl, ht, ?_, rfl, rfl⟩
      dsimp only
      rw [List.find?_map]
      have : ((fun v : Var (Payload K) => v.name == n) ∘ fun w => if w.name = n then { w with payload := { w.payload with data := some d } } else w)
          = fun v => v.name == n := by
        funext w
        simp only [Function.comp]
        split <;> rfl
      rw [this, hf]
      have hn : v.name = n := by simpa using List.find?_some hf
      simp [hn]
    · rw [if_neg ht] at h; cases h

/-- Without success there is an exception. -/
theorem setData_type {c : DS K V} {n : String} {d : Data K} {v : Var (Payload K)} (hv : getVariable c n = .ok v) (ht : d.type ≠ v.payload.type) :
    setData c n d = .throws := by
  unfold getVariable at hv
  unfold setData
  cases hf : c.vars.find? fun v => v.name == n with
  | none => simp [hf] at hv
  | some w =>
    rw [hf] at hv
    injection hv with hv
    subst hv
    dsimp only
    rw [if_neg ht]

/-! ## Parts -/

theorem exactlyOne_ok {α : Type} {l : List α} {a : α} (h : exactlyOne l = .ok a) : l = [a] := by
  unfold exactlyOne at h
  split at h
  · injection h with h; rw [h]
  · cases h

/-- An axis. -/
theorem addAxis_ok {c c' : DS K V} {n : String} {k : ℕ} {t : DataType} {xs : List K} {as : List (Attr V)} (h : addAxis c n k t xs as = .ok c') :
    Good c c' ∧ hasDimension c n = false ∧ getDimension c' n = .ok ⟨n, k, false⟩ ∧ getVariable c' n = .ok ⟨n, [n], ⟨t, some (create t xs)⟩⟩ ∧
      (create t xs).type = t := by
  unfold addAxis at h
  obtain ⟨c1, e1, h⟩ := bind_ok h
  obtain ⟨c2, e2, h⟩ := bind_ok h
  have g1 := good_newDim e1
  have d1 := getDim_new e1
  have g2 := good_newVar e2 (by intro x hx; simp at hx; subst hx; exact hasDim_iff.2 ⟨_, d1⟩)
  have g3 := good_newAttrs h
  exact ⟨(g1.trans g2).trans g3, (newDim_ok e1).1, (g2.trans g3).grows.dim d1, g3.grows.var (getVar_new e2), (newVar_ok e2).2.2.2.2 _ rfl⟩

theorem addLonLat_ok {E : Env G K V} {c c' : DS K V} {g : G} {x y lon lat : String} (h : addLonLat E c g x y lon lat = .ok c')
    (hx : hasDimension c x = true) (hy : hasDimension c y = true) : Good c c' ∧ ∃ ll, E.lonLat g = .ok ll ∧
      getVariable c' lon = .ok ⟨lon, [x, y], ⟨.double, some (.nums .double ll.1)⟩⟩ ∧
      getVariable c' lat = .ok ⟨lat, [x, y], ⟨.double, some (.nums .double ll.2)⟩⟩ := by
  unfold addLonLat at h
  obtain ⟨ll, e0, h⟩ := bind_ok h
  obtain ⟨c1, e1, h⟩ := bind_ok h
  obtain ⟨c2, e2, h⟩ := bind_ok h
  obtain ⟨c3, e3, h⟩ := bind_ok h
  have g1 := good_newVar e1 (by intro z hz; simp at hz; rcases hz with rfl | rfl <;> assumption)
  have g2 := good_newVar e2 (by intro z hz; simp at hz; rcases hz with rfl | rfl <;> exact g1.grows.hasDim ‹_›)
  have g3 := good_newAttrs e3
  have g4 := good_newAttrs h
  exact ⟨((g1.trans g2).trans g3).trans g4, ll, e0, ((g2.trans g3).trans g4).grows.var (getVar_new e1), (g3.trans g4).grows.var (getVar_new e2)⟩

/-- What holds of the entry of a grid that is the `k`-th. -/
structure GridOk (E : Env G K V) (c : DS K V) (k : ℕ) (g : G) (T : String) (p : PInfo) : Prop where
  x : ∃ X, E.spatial T false = [X] ∧ p.xDim = X.name ++ appendix k ∧
    getVariable c p.xDim = .ok ⟨p.xDim, [p.xDim], ⟨X.type, some (create X.type (E.xs g))⟩⟩ ∧ p.gridMapping = "projection_" ++ T ++ appendix k ∧
    ∃ Y, E.spatial T true = [Y] ∧ p.yDim = Y.name ++ appendix k ∧
      getVariable c p.yDim = .ok ⟨p.yDim, [p.yDim], ⟨Y.type, some (create Y.type (E.ys g))⟩⟩
  dx : getDimension c p.xDim = .ok ⟨p.xDim, E.nx g, false⟩
  dy : getDimension c p.yDim = .ok ⟨p.yDim, E.ny g, false⟩
  mapping : getVariable c p.gridMapping = .ok ⟨p.gridMapping, [], ⟨.nat, none⟩⟩
  coords : ∃ lon lat, E.lon = [lon] ∧ E.lat = [lat] ∧
    (p.xDim ≠ lon ++ appendix k ∧ p.yDim ≠ lat ++ appendix k ∧ p.coordinates = lon ++ appendix k ++ " " ++ (lat ++ appendix k) ∧
        (∃ ll, E.lonLat g = .ok ll ∧
          getVariable c (lon ++ appendix k) = .ok ⟨lon ++ appendix k, [p.xDim, p.yDim], ⟨.double, some (.nums .double ll.1)⟩⟩ ∧
          getVariable c (lat ++ appendix k) = .ok ⟨lat ++ appendix k, [p.xDim, p.yDim], ⟨.double, some (.nums .double ll.2)⟩⟩) ∨
      (p.xDim = lon ++ appendix k ∨ p.yDim = lat ++ appendix k) ∧ p.coordinates = "")

theorem GridOk.grow {E : Env G K V} {c c' : DS K V} {k : ℕ} {g : G} {T : String} {p : PInfo} (h : GridOk E c k g T p) (gr : Grows c c') :
    GridOk E c' k g T p := by
  obtain ⟨⟨X, a1, a2, a3, a4, Y, b1, b2, b3⟩, dx, dy, m, lon, lat, l1, l2, l3⟩ := h
  refine ⟨⟨X, a1, a2, gr.var a3, a4, Y, b1, b2, gr.var b3⟩, gr.dim dx, gr.dim dy, gr.var m, lon, lat, l1, l2, ?_⟩
  rcases l3 with ⟨q1, q2, q3, ll, q4, q5, q6⟩ | q
  · exact .inl ⟨q1, q2, q3, ll, q4, gr.var q5, gr.var q6⟩
  · exact .inr q

theorem newProjection_ok {E : Env G K V} {c : DS K V} {k : ℕ} {g : G} {T : String} {r : DS K V × PInfo} (h : newProjection E c k g T = .ok r) :
    Good c r.1 ∧ GridOk E r.1 k g T r.2 ∧ r.2.gridMapping = "projection_" ++ T ++ appendix k := by
  unfold newProjection at h
  obtain ⟨c1, e1, h⟩ := bind_ok h
  obtain ⟨as, e2, h⟩ := bind_ok h
  obtain ⟨c2, e3, h⟩ := bind_ok h
  obtain ⟨X, e4, h⟩ := bind_ok h
  obtain ⟨c3, e5, h⟩ := bind_ok h
  obtain ⟨Y, e6, h⟩ := bind_ok h
  obtain ⟨c4, e7, h⟩ := bind_ok h
  obtain ⟨lon, e8, h⟩ := bind_ok h
  obtain ⟨lat, e9, h⟩ := bind_ok h
  have g1 := good_newVar e1 (by simp)
  have g2 := good_newAttrs e3
  obtain ⟨g3, _, x1, x2, _⟩ := addAxis_ok e5
  obtain ⟨g4, _, y1, y2, _⟩ := addAxis_ok e7
  have gm := ((g2.trans g3).trans g4).grows.var (getVar_new e1)
  have g5 := ((g1.trans g2).trans g3).trans g4
  by_cases hc : X.name ++ appendix k ≠ lon ++ appendix k ∧ Y.name ++ appendix k ≠ lat ++ appendix k
  · rw [if_pos hc] at h
    obtain ⟨c5, e10, h⟩ := bind_ok h
    injection h with h
    subst h
    obtain ⟨g6, ll, q1, q2, q3⟩ := addLonLat_ok e10 (hasDim_iff.2 ⟨_, g4.grows.dim x1⟩) (hasDim_iff.2 ⟨_, y1⟩)
    refine ⟨g5.trans g6, ⟨⟨X, exactlyOne_ok e4, rfl, (g4.trans g6).grows.var x2, rfl, Y, exactlyOne_ok e6, rfl, g6.grows.var y2⟩,
      (g4.trans g6).grows.dim x1, g6.grows.dim y1, g6.grows.var gm, lon, lat, exactlyOne_ok e8, exactlyOne_ok e9, .inl ?_⟩, rfl⟩
    exact ⟨hc.1, hc.2, rfl, ll, q1, q2, q3⟩
  · rw [if_neg hc] at h
    injection h with h
    subst h
    refine ⟨g5, ⟨⟨X, exactlyOne_ok e4, rfl, g4.grows.var x2, rfl, Y, exactlyOne_ok e6, rfl, y2⟩, g4.grows.dim x1, y1, gm,
      lon, lat, exactlyOne_ok e8, exactlyOne_ok e9, .inr ⟨?_, rfl⟩⟩, rfl⟩
    by_cases h1 : X.name ++ appendix k = lon ++ appendix k
    · exact .inl h1
    · right; by_contra h2; exact hc ⟨h1, h2⟩

/-! ## Projections -/

/-- The entries of the grids, the grids are distinct. -/
structure GridsOk (E : Env G K V) (gs : List (G × String)) (st : DS K V × List (G × PInfo)) : Prop where
  wf : Wf st.1
  nodup : (st.2.map (·.1)).Nodup
  entries : ∀ (k : ℕ) (q : G × PInfo), st.2[k]? = some q → ∃ T, (q.1, T) ∈ gs ∧ GridOk E st.1 k q.1 T q.2
  seen : ∀ g, g ∈ st.2.map (·.1) ↔ g ∈ gs.map (·.1)

theorem foldlM_cons_ok {σ α : Type} {f : σ → α → Res σ} {s s' : σ} {a : α} {l : List α} (h : (a :: l).foldlM f s = .ok s') :
    ∃ t, f s a = .ok t ∧ l.foldlM f t = .ok s' := by
  rw [List.foldlM_cons] at h
  exact bind_ok h

theorem gridsOk_step [DecidableEq G] {E : Env G K V} {st st' : DS K V × List (G × PInfo)} {gt : G × String} {gs : List (G × String)}
    (i : GridsOk E gs st) (h : loadAddProjection E st gt = .ok st') : GridsOk E (gs ++ [gt]) st' ∧ Grows st.1 st'.1 ∧
      st'.2.map (·.1) = (if gt.1 ∈ st.2.map (·.1) then st.2.map (·.1) else st.2.map (·.1) ++ [gt.1]) := by
  unfold loadAddProjection at h
  by_cases hk : (st.2.any fun p => p.1 = gt.1) = true
  · rw [if_pos hk] at h
    injection h with h
    subst h
    have : gt.1 ∈ st.2.map (·.1) := by
      simp only [List.any_eq_true, decide_eq_true_eq] at hk
      obtain ⟨p, hp, e⟩ := hk
      exact List.mem_map.2 ⟨p, hp, e⟩
    refine ⟨⟨i.wf, i.nodup, ?_, ?_⟩, .refl _, by rw [if_pos this]⟩
    · intro k q hq
      obtain ⟨T, h1, h2⟩ := i.entries k q hq
      exact ⟨T, by simp [h1], h2⟩
    · intro g
      rw [i.seen, List.map_append, List.mem_append]
      refine ⟨.inl, ?_⟩
      rintro (h | h)
      · exact h
      · simp at h
        subst h
        exact (i.seen _).1 this
  · rw [if_neg hk] at h
    obtain ⟨r, e, h⟩ := bind_ok h
    injection h with h
    subst h
    have hm : gt.1 ∉ st.2.map (·.1) := by
      intro hm
      obtain ⟨p, hp, e⟩ := List.mem_map.1 hm
      exact hk (List.any_eq_true.2 ⟨p, hp, by simpa using e⟩)
    obtain ⟨g, ok, _⟩ := newProjection_ok e
    refine ⟨⟨g.wf i.wf, ?_, ?_, ?_⟩, g.grows, by rw [if_neg hm]; simp⟩
    · rw [List.map_append, List.nodup_append]
      refine ⟨i.nodup, by simp, ?_⟩
      intro a ha b hb e
      simp at hb
      subst hb
      exact hm (e ▸ ha)
    · intro k q hq
      dsimp only at *
      rcases Nat.lt_trichotomy k st.2.length with hk | hk | hk
      · rw [List.getElem?_append_left hk] at hq
        obtain ⟨T, h1, h2⟩ := i.entries k q hq
        exact ⟨T, by simp [h1], h2.grow g.grows⟩
      · subst hk
        rw [List.getElem?_append_right (Nat.le_refl _)] at hq
        simp at hq
        subst hq
        exact ⟨gt.2, by simp, ok⟩
      · rw [List.getElem?_append_right (by omega)] at hq
        have : k - st.2.length ≠ 0 := by omega
        simp [this] at hq
    · intro x
      rw [List.map_append, List.mem_append, i.seen, List.map_append, List.mem_append]
      simp

theorem projections_ok [DecidableEq G] {E : Env G K V} : ∀ {gs before : List (G × String)} {st st' : DS K V × List (G × PInfo)},
    GridsOk E before st → gs.foldlM (loadAddProjection E) st = .ok st' → GridsOk E (before ++ gs) st'
  | [], before, st, st', i, h => by
    have : st = st' := by injection h
    rw [List.append_nil]
    exact this ▸ i
  | g :: gs, before, st, st', i, h => by
    obtain ⟨t, e, h⟩ := foldlM_cons_ok h
    have := projections_ok (gridsOk_step i e).1 h
    rwa [List.append_assoc, List.singleton_append] at this

/-! ## Time and members -/

theorem timeUnits_ok {E : Env G K V} {c : DS K V} {n : String} {r : DS K V × String} (h : timeUnits E c n = .ok r) : Good c r.1 ∧ r.1.vars = c.vars ∧
    ∃ a, ((getAttributes r.1 n).find? fun a => a.name == "units") = some a ∧ r.2 = E.asText a.value ∧
      (((getAttributes c n).find? fun a => a.name == "units") = some a ∨
        ((getAttributes c n).find? fun a => a.name == "units") = none ∧ a = ⟨"units", E.text "seconds since 1970-01-01 00:00:00 +00:00"⟩) := by
  unfold timeUnits at h
  cases hf : (getAttributes c n).find? fun a => a.name == "units" with
  | some a =>
    rw [hf] at h
    injection h with h
    subst h
    exact ⟨.refl c, rfl, a, hf, rfl, .inl rfl⟩
  | none =>
    rw [hf] at h
    dsimp only at h
    obtain ⟨c1, e1, h⟩ := bind_ok h
    injection h with h
    subst h
    obtain ⟨v, _, a3, _⟩ := newAttrs_ok e1
    refine ⟨good_newAttrs e1, v, ⟨"units", E.text "seconds since 1970-01-01 00:00:00 +00:00"⟩, ?_, rfl, .inr ⟨rfl, rfl⟩⟩
    rw [a3, List.find?_append, hf]
    simp

theorem addReference_ok {E : Env G K V} {c c' : DS K V} {t : DataType} {ref : Option ℕ} (h : addReference E c t ref = .ok c') : Good c c' ∧
    ∀ r, ref = some r → getVariable c' "forecast_reference_time" = .ok ⟨"forecast_reference_time", [], ⟨t, some (.nums t [E.epoch r])⟩⟩ := by
  unfold addReference at h
  cases ref with
  | none =>
    injection h with h
    subst h
    exact ⟨.refl c, by simp⟩
  | some r =>
    dsimp only at h
    obtain ⟨c1, e1, h⟩ := bind_ok h
    have g1 := good_newVar e1 (by simp)
    have g2 := good_newAttrs h
    exact ⟨g1.trans g2, by rintro _ ⟨⟩; exact g2.grows.var (getVar_new e1)⟩

/-- The units of a list of attributes, with the default. -/
def unitsOf (E : Env G K V) (as : List (Attr V)) : String :=
  match as.find? fun a => a.name == "units" with
  | some a => E.asText a.value
  | none => E.asText (E.text "seconds since 1970-01-01 00:00:00 +00:00")

theorem addTime_ok {E : Env G K V} {c : DS K V} {times : List ℕ} {ref : Option ℕ} {r : DS K V × String} (h : addTime E c times ref = .ok r) :
    Good c r.1 ∧ hasDimension c r.2 = false ∧ getDimension r.1 r.2 = .ok ⟨r.2, times.length, true⟩ ∧
      ∃ T, E.time = [T] ∧ r.2 = T.name ∧ (∃ f u, (Wf c → T.name ≠ globalNS → u = unitsOf E T.attrs) ∧ E.unit u = .ok f ∧ getVariable r.1 T.name = .ok ⟨T.name, [T.name], ⟨T.type, some (create T.type (times.map f))⟩⟩) ∧
        ∀ t, ref = some t →
          getVariable r.1 "forecast_reference_time" = .ok ⟨"forecast_reference_time", [], ⟨T.type, some (.nums T.type [E.epoch t])⟩⟩ := by
  unfold addTime at h
  obtain ⟨T, e0, h⟩ := bind_ok h
  obtain ⟨c1, e1, h⟩ := bind_ok h
  obtain ⟨c2, e2, h⟩ := bind_ok h
  obtain ⟨c3, e3, h⟩ := bind_ok h
  obtain ⟨cu, e4, h⟩ := bind_ok h
  obtain ⟨f, e5, h⟩ := bind_ok h
  obtain ⟨c4, e6, h⟩ := bind_ok h
  obtain ⟨c5, e7, h⟩ := bind_ok h
  injection h with h
  subst h
  have g1 := good_newDim e1
  have d1 := getDim_new e1
  have g2 := good_newVar e2 (by intro x hx; simp at hx; subst hx; exact hasDim_iff.2 ⟨_, d1⟩)
  have g3 := good_newAttrs e3
  obtain ⟨g4, _, a, w1, w2, w3⟩ := timeUnits_ok e4
  have hv : hasVariable c T.name = false := by
    have := (newVar_ok e2).1
    unfold hasVariable at *
    rw [(newDim_ok e1).2.2.1] at this
    exact this
  have hu : Wf c → T.name ≠ globalNS → cu.2 = unitsOf E T.attrs := by
    intro w hg
    have ha : getAttributes c3 T.name = T.attrs := by
      rw [(newAttrs_ok e3).2.2.1]
      have : getAttributes c2 T.name = getAttributes c T.name := by
        unfold getAttributes
        rw [(newVar_ok e2).2.2.2.1, (newDim_ok e1).2.2.2]
      rw [this, w.attrs _ hg hv, List.nil_append]
    rw [ha] at w3
    unfold unitsOf
    rcases w3 with w3 | ⟨w3, w4⟩
    · rw [w3, w2]
    · rw [w3, w2, w4]
  have g5 := good_setData ((((g1.trans g2).trans g3).trans g4)) hv e6
  obtain ⟨v, v1, v2, v3, v4, _⟩ := getVar_setData e6
  have v0 := (g3.trans g4).grows.var (getVar_new e2)
  rw [v0] at v1
  injection v1 with v1
  subst v1
  obtain ⟨g6, q⟩ := addReference_ok e7
  have d5 : getDimension c4 T.name = .ok ⟨T.name, times.length, true⟩ := by
    have := ((g2.trans g3).trans g4).grows.dim d1
    unfold getDimension at *
    rw [v4]; exact this
  exact ⟨g5.trans g6, (newDim_ok e1).1, g6.grows.dim d5, T, exactlyOne_ok e0, rfl, ⟨f, cu.2, hu, e5, g6.grows.var v3⟩, q⟩

theorem addGlobals_ok {E : Env G K V} {c c' : DS K V} (h : addGlobals E c = .ok c') : Good c c' := by
  unfold addGlobals at h
  obtain ⟨as, _, h⟩ := bind_ok h
  obtain ⟨c1, e1, h⟩ := bind_ok h
  have g1 := good_newAttrs e1
  split at h
  · injection h with h; subst h; exact g1
  · exact g1.trans (good_newAttrs h)

theorem addMemberNames_ok {E : Env G K V} {c c' : DS K V} {n : ℕ} (h : addMemberNames E c n = .ok c') (he : hasDimension c "ensemble_member" = true) :
    Good c c' ∧ (E.members.length = n → getDimension c' "ensemble_member_strlen" = .ok ⟨"ensemble_member_strlen", maxLen E.members, false⟩ ∧
      getVariable c' "ensemble_member_names" =
        .ok ⟨"ensemble_member_names", ["ensemble_member_strlen", "ensemble_member"], ⟨.string, some (.chars (nameText E.members))⟩⟩) := by
  unfold addMemberNames at h
  by_cases hn : E.members.length = n
  · rw [if_pos hn] at h
    obtain ⟨c1, e1, h⟩ := bind_ok h
    obtain ⟨c2, e2, h⟩ := bind_ok h
    obtain ⟨c3, e3, h⟩ := bind_ok h
    have g1 := good_newDim e1
    have d1 := getDim_new e1
    have g2 := good_newVar e2 (by
      intro x hx
      simp at hx
      rcases hx with rfl | rfl
      · exact hasDim_iff.2 ⟨_, d1⟩
      · exact g1.grows.hasDim he)
    have g3 := good_newAttrs e3
    have g4 := good_newAttrs h
    exact ⟨((g1.trans g2).trans g3).trans g4, fun _ => ⟨((g2.trans g3).trans g4).grows.dim d1, (g3.trans g4).grows.var (getVar_new e2)⟩⟩
  · rw [if_neg hn] at h
    injection h with h
    subst h
    exact ⟨.refl c, fun e => absurd e hn⟩

theorem addEnsembles_ok {E : Env G K V} {c : DS K V} {n : ℕ} {r : DS K V × String} (h : addEnsembles E c n = .ok r) : Good c r.1 ∧
    (n ≤ 1 ∧ r = (c, "") ∨ 1 < n ∧ r.2 = "ensemble_member" ∧ getDimension r.1 r.2 = .ok ⟨r.2, n, false⟩ ∧
      getVariable r.1 "ensemble_member" =
        .ok ⟨"ensemble_member", ["ensemble_member"], ⟨.short, some (.nums .short ((List.range n).map fun i => E.cast i))⟩⟩ ∧
      (E.members.length = n → getDimension r.1 "ensemble_member_strlen" = .ok ⟨"ensemble_member_strlen", maxLen E.members, false⟩ ∧
        getVariable r.1 "ensemble_member_names" =
          .ok ⟨"ensemble_member_names", ["ensemble_member_strlen", "ensemble_member"], ⟨.string, some (.chars (nameText E.members))⟩⟩)) := by
  unfold addEnsembles at h
  by_cases hn : n ≤ 1
  · rw [if_pos hn] at h
    injection h with h
    subst h
    exact ⟨.refl c, .inl ⟨hn, rfl⟩⟩
  · rw [if_neg hn] at h
    obtain ⟨c1, e1, h⟩ := bind_ok h
    obtain ⟨c2, e2, h⟩ := bind_ok h
    obtain ⟨c3, e3, h⟩ := bind_ok h
    obtain ⟨c4, e4, h⟩ := bind_ok h
    injection h with h
    subst h
    have g1 := good_newDim e1
    have d1 := getDim_new e1
    have g2 := good_newVar e2 (by intro x hx; simp at hx; subst hx; exact hasDim_iff.2 ⟨_, d1⟩)
    have g3 := good_newAttrs e3
    obtain ⟨g4, q⟩ := addMemberNames_ok e4 (hasDim_iff.2 ⟨_, (g2.trans g3).grows.dim d1⟩)
    exact ⟨((g1.trans g2).trans g3).trans g4, .inr ⟨by omega, rfl, ((g2.trans g3).trans g4).grows.dim d1,
      (g3.trans g4).grows.var (getVar_new e2), q⟩⟩

/-! ## Levels -/

theorem findUnique_spec (c : DS K V) (n : String) : ∃ r, findUnique c n = some r ∧ hasDimension c r = false ∧
    (r = n ∨ hasDimension c n = true ∧ ∃ k, 0 < k ∧ r = n ++ toString k ∧ ∀ j, 0 < j → j < k → hasDimension c (n ++ toString j) = true) := by
  obtain ⟨r, e, h1, h2⟩ := Names.C45_fresh_name (c.dims.map (·.name)) n (c.dims.length + 2) (by simp)
  have key : ∀ x, x ∈ c.dims.map (·.name) → hasDimension c x = true := by
    intro x hx
    cases hq : hasDimension c x with
    | true => rfl
    | false => exact absurd hx (hasDim_names.1 hq)
  refine ⟨r, e, hasDim_names.2 h1, ?_⟩
  rcases h2 with h | ⟨h, k, hk, e', hj⟩
  · exact .inl h
  · exact .inr ⟨key _ h, k, hk, e', fun j a b => key _ (hj j a b)⟩

theorem addAux_good {pv : List K} {level ext : String} {d : Data K} {c c' : DS K V} {a : Aux K V} (h : addAux pv level ext d c a = .ok c')
    (hl : hasDimension c level = true) : Good c c' := by
  unfold addAux at h
  split at h
  · rename_i c1 e
    obtain ⟨vs, _, e⟩ := bind_ok e
    refine (good_newVar e ?_).trans (good_newAttrs h)
    intro x hx
    split at hx
    · simp at hx; subst hx; exact hl
    · simp at hx
  · exact good_newAttrs h
  · cases h

theorem addAuxs_good {pv : List K} {level ext : String} {d : Data K} : ∀ {as : List (Aux K V)} {c c' : DS K V},
    as.foldlM (addAux pv level ext d) c = .ok c' → hasDimension c level = true → Good c c'
  | [], c, c', h, _ => by
    have : c = c' := by injection h
    exact this ▸ .refl c
  | a :: as, c, c', h, hl => by
    obtain ⟨t, e, h⟩ := foldlM_cons_ok h
    have g := addAux_good e hl
    exact g.trans (addAuxs_good h (g.grows.hasDim hl))

theorem addSpecial_good {c : DS K V} {A : Vertical K V} {pv : List K} {level ext : String} {d : Data K} {r : DS K V × Data K}
    (h : addSpecial c A pv level ext d = .ok r) (hl : hasDimension c level = true) : Good c r.1 ∧ (A.additional = [] → r.2 = d) ∧
      (r.2 = d ∨ ∃ c1 vs, A.values c1 d pv ext = .ok vs ∧ r.2 = .nums .double vs) ∧
      (A.additional ≠ [] → (∀ c d p x, ∃ vs, A.values c d p x = .ok vs) → ∃ vs, r.2 = .nums .double vs) := by
  unfold addSpecial at h
  by_cases ha : A.additional.isEmpty = true
  · rw [if_pos ha] at h
    injection h with h
    subst h
    exact ⟨.refl c, fun _ => rfl, .inl rfl, fun e => absurd (by simpa using ha) e⟩
  · rw [if_neg ha] at h
    obtain ⟨c1, e1, h⟩ := bind_ok h
    have g := addAuxs_good e1 hl
    have hn : A.additional ≠ [] := fun e => ha (by simp [e])
    split at h
    · rename_i vs hv
      injection h with h
      subst h
      exact ⟨g, fun e => absurd e hn, .inr ⟨c1, vs, hv, rfl⟩, fun _ _ => ⟨vs, rfl⟩⟩
    · rename_i hv
      injection h with h
      subst h
      refine ⟨g, fun e => absurd e hn, .inl rfl, fun _ q => ?_⟩
      obtain ⟨vs, q⟩ := q c1 d pv ext
      rw [q] at hv
      cases hv
    · cases h

theorem levelSpecial_good {E : Env G K V} {c : DS K V} {t : ℤ × ℤ} {A : Option (Vertical K V)} {pos : ℕ} {level ext : String} {d : Data K}
    {r : DS K V × Data K} (h : levelSpecial E c t A pos level ext d = .ok r) (hl : hasDimension c level = true) : Good c r.1 ∧
      ((∀ B, A = some B → B.additional = []) → r.2 = d) ∧
      (r.2 = d ∨ ∃ B c1 vs, A = some B ∧ B.values c1 d (E.pv t pos) ext = .ok vs ∧ r.2 = .nums .double vs) ∧
      ∀ B, A = some B → B.additional ≠ [] → (∀ c d p x, ∃ vs, B.values c d p x = .ok vs) → ∃ vs, r.2 = .nums .double vs := by
  unfold levelSpecial at h
  cases A with
  | none =>
    injection h with h
    subst h
    exact ⟨.refl c, fun _ => rfl, .inl rfl, by simp⟩
  | some A =>
    obtain ⟨g, a, b, e⟩ := addSpecial_good h hl
    refine ⟨g, fun q => a (q A rfl), ?_, by rintro B ⟨⟩; exact e⟩
    rcases b with b | ⟨c1, vs, b1, b2⟩
    · exact .inl b
    · exact .inr ⟨A, c1, vs, rfl, b1, b2⟩

/-- What holds of the levels of a position. -/
structure LevelOk (E : Env G K V) (c : DS K V) (t : ℤ × ℤ) (A : Option (Vertical K V)) (pos : ℕ) (values : List ℤ) (name : String) : Prop where
  dim : getDimension c name = .ok ⟨name, values.length, false⟩
  var : ∃ d, getVariable c name = .ok ⟨name, [name], ⟨levelDataType A, some d⟩⟩ ∧ d.type = levelDataType A ∧
    ((∀ B, A = some B → B.additional = []) → d = create (levelDataType A) (values.map E.cast)) ∧
    (d = create (levelDataType A) (values.map E.cast) ∨
      ∃ B c1 vs ext, A = some B ∧ B.values c1 (create (levelDataType A) (values.map E.cast)) (E.pv t pos) ext = .ok vs ∧ d = .nums .double vs) ∧
    ∀ B, A = some B → B.additional ≠ [] → (∀ c d p x, ∃ vs, B.values c d p x = .ok vs) → ∃ vs, d = .nums .double vs

theorem LevelOk.grow {E : Env G K V} {c c' : DS K V} {t : ℤ × ℤ} {A : Option (Vertical K V)} {pos : ℕ} {values : List ℤ} {name : String}
    (h : LevelOk E c t A pos values name) (g : Grows c c') : LevelOk E c' t A pos values name := by
  obtain ⟨a, d, b, e⟩ := h
  exact ⟨g.dim a, d, g.var b, e⟩

theorem addLevel_ok {E : Env G K V} {c : DS K V} {t : ℤ × ℤ} {A : Option (Vertical K V)} {multi : Bool} {pos : ℕ} {values : List ℤ}
    {r : DS K V × String} (h : addLevel E c t A multi pos values = .ok r) : Good c r.1 ∧ hasDimension c r.2 = false ∧
      LevelOk E r.1 t A pos values r.2 ∧
      (∃ s, r.2 = levelId t A ++ s) ∧ (hasDimension c (levelId t A ++ (if multi then toString pos else "")) = false → r.2 = levelId t A ++ (if multi then toString pos else "")) := by
  unfold addLevel at h
  obtain ⟨name, f1, f2, f3⟩ := findUnique_spec c (levelId t A ++ (if multi then toString pos else ""))
  rw [f1] at h
  dsimp only at h
  obtain ⟨c1, e1, h⟩ := bind_ok h
  obtain ⟨c2, e2, h⟩ := bind_ok h
  obtain ⟨cd, e3, h⟩ := bind_ok h
  obtain ⟨c3, e4, h⟩ := bind_ok h
  obtain ⟨c4, e5, h⟩ := bind_ok h
  injection h with h
  subst h
  have g1 := good_newDim e1
  have d1 := getDim_new e1
  have g2 := good_newVar e2 (by intro x hx; simp at hx; subst hx; exact hasDim_iff.2 ⟨_, d1⟩)
  obtain ⟨g3, s1, s2, s3⟩ := levelSpecial_good e3 (hasDim_iff.2 ⟨_, g2.grows.dim d1⟩)
  have hv : hasVariable c name = false := by
    have := (newVar_ok e2).1
    unfold hasVariable at *
    rw [(newDim_ok e1).2.2.1] at this
    exact this
  have g4 := good_setData ((g1.trans g2).trans g3) hv e4
  obtain ⟨v, v1, v2, v3, v4, _⟩ := getVar_setData e4
  have v0 := g3.grows.var (getVar_new e2)
  rw [v0] at v1
  injection v1 with v1
  subst v1
  have g5 := good_newAttrs e5
  have d5 : getDimension c3 name = .ok ⟨name, values.length, false⟩ := by
    have := (g2.trans g3).grows.dim d1
    unfold getDimension at *
    rw [v4]; exact this
  refine ⟨g4.trans g5, f2, ⟨g5.grows.dim d5, cd.2, g5.grows.var v3, v2, s1, ?_, s3⟩, ?_, ?_⟩
  · rcases s2 with s | ⟨B, c9, vs, b1, b2, b3⟩
    · exact .inl s
    · exact .inr ⟨B, c9, vs, _, b1, b2, b3⟩
  · rcases f3 with rfl | ⟨_, k, _, rfl, _⟩
    · exact ⟨_, rfl⟩
    · exact ⟨(if multi then toString pos else "") ++ toString k, by rw [String.append_assoc]⟩
  · intro hq
    rcases f3 with e | ⟨q, _⟩
    · exact e
    · rw [q] at hq; cases hq

theorem addPositions_ok {E : Env G K V} {t : ℤ × ℤ} {A : Option (Vertical K V)} {multi : Bool} : ∀ {vs : List (List ℤ)} {c : DS K V} {pos : ℕ}
    {r : DS K V × List String}, addPositions E t A multi c pos vs = .ok r → Good c r.1 ∧ r.2.length = vs.length ∧ r.2.Nodup ∧
      (∀ n ∈ r.2, hasDimension c n = false ∧ ∃ s, n = levelId t A ++ s) ∧
      ∀ (k : ℕ) (n : String) (l : List ℤ), r.2[k]? = some n → vs[k]? = some l → LevelOk E r.1 t A (pos + k) l n
  | [], c, pos, r, h => by
    injection h with h
    subst h
    exact ⟨.refl c, rfl, by simp, by simp, by simp⟩
  | v :: vs, c, pos, r, h => by
    unfold addPositions at h
    obtain ⟨r1, e1, h⟩ := bind_ok h
    obtain ⟨q, e2, h⟩ := bind_ok h
    injection h with h
    subst h
    obtain ⟨g1, a1, a2, a3, _⟩ := addLevel_ok e1
    obtain ⟨g2, b1, b2, b3, b4⟩ := addPositions_ok e2
    refine ⟨g1.trans g2, by simp [b1], ?_, ?_, ?_⟩
    · rw [List.nodup_cons]
      refine ⟨fun hm => ?_, b2⟩
      have := (b3 _ hm).1
      rw [hasDim_iff.2 ⟨_, a2.dim⟩] at this
      cases this
    · intro n hn
      rcases List.mem_cons.1 hn with rfl | hn
      · exact ⟨a1, a3⟩
      · obtain ⟨p, s⟩ := b3 n hn
        refine ⟨?_, s⟩
        cases hq : hasDimension c n with
        | false => rfl
        | true => rw [g1.grows.hasDim hq] at p; cases p
    · intro k n l hk hl
      cases k with
      | zero =>
        simp at hk hl
        subst hk hl
        exact a2.grow g2.grows
      | succ k =>
        simp at hk hl
        have := b4 k n l hk hl
        rw [show pos + 1 + k = pos + (k + 1) by omega] at this
        exact this

/-- What holds of the types of levels that were added to `c0`. -/
structure TypesOk (E : Env G K V) (lv : Levels) (c0 : DS K V) (st : DS K V × List ((ℤ × ℤ) × List String)) : Prop where
  good : Good c0 st.1
  entries : ∀ p ∈ st.2, (E.vertical p.1).length ≤ 1 ∧ p.2.length = (lv p.1).length ∧
    ∀ (k : ℕ) (n : String) (l : List ℤ), p.2[k]? = some n → (lv p.1)[k]? = some l →
      LevelOk E st.1 p.1 (E.vertical p.1).head? k l n ∧ hasDimension c0 n = false ∧ ∃ s, n = levelId p.1 (E.vertical p.1).head? ++ s
  nodup : (st.2.flatMap (·.2)).Nodup
  there : ∀ n ∈ st.2.flatMap (·.2), hasDimension st.1 n = true

theorem addType_ok {E : Env G K V} {lv : Levels} {c0 : DS K V} {st st' : DS K V × List ((ℤ × ℤ) × List String)} {t : ℤ × ℤ}
    (i : TypesOk E lv c0 st) (h : addType E lv st t = .ok st') : TypesOk E lv c0 st' ∧ st'.2.map (·.1) = st.2.map (·.1) ++ [t] := by
  unfold addType at h
  by_cases hl : 1 < (E.vertical t).length
  · rw [if_pos hl] at h; cases h
  · rw [if_neg hl] at h
    obtain ⟨r, e, h⟩ := bind_ok h
    injection h with h
    subst h
    obtain ⟨g, a1, a2, a3, a4⟩ := addPositions_ok e
    refine ⟨⟨i.good.trans g, ?_, ?_, ?_⟩, by simp⟩
    · intro p hp
      rw [List.mem_append] at hp
      rcases hp with hp | hp
      · obtain ⟨b1, b2, b3⟩ := i.entries p hp
        refine ⟨b1, b2, fun k n l hk hl => ?_⟩
        obtain ⟨q1, q2, q3⟩ := b3 k n l hk hl
        exact ⟨q1.grow g.grows, q2, q3⟩
      · simp at hp
        subst hp
        refine ⟨Nat.le_of_not_lt hl, a1, fun k n l hk hl => ?_⟩
        obtain ⟨b1, b2⟩ := a3 n (List.mem_of_getElem? hk)
        refine ⟨by simpa using a4 k n l hk hl, ?_, b2⟩
        cases hq : hasDimension c0 n with
        | false => rfl
        | true => rw [i.good.grows.hasDim hq] at b1; cases b1
    · rw [List.flatMap_append, List.nodup_append]
      refine ⟨i.nodup, by simpa using a2, ?_⟩
      intro x hx y hy exy
      subst exy
      have h1 := i.there x hx
      simp at hy
      rw [(a3 x hy).1] at h1
      cases h1
    · intro n hn
      rw [List.flatMap_append, List.mem_append] at hn
      rcases hn with hn | hn
      · exact g.grows.hasDim (i.there n hn)
      · simp at hn
        obtain ⟨k, hk⟩ := List.getElem?_of_mem hn
        have hk2 : k < (lv t).length := by
          rw [← a1]; exact (List.getElem?_eq_some_iff.1 hk).1
        exact hasDim_iff.2 ⟨_, (a4 k n _ hk (List.getElem?_eq_getElem hk2)).dim⟩

theorem addTypes_ok {E : Env G K V} {lv : Levels} {c0 : DS K V} : ∀ {ts : List (ℤ × ℤ)} {st st' : DS K V × List ((ℤ × ℤ) × List String)},
    TypesOk E lv c0 st → ts.foldlM (addType E lv) st = .ok st' → TypesOk E lv c0 st' ∧ st'.2.map (·.1) = st.2.map (·.1) ++ ts
  | [], st, st', i, h => by
    have : st = st' := by injection h
    exact this ▸ ⟨i, by simp⟩
  | t :: ts, st, st', i, h => by
    obtain ⟨u, e, h⟩ := foldlM_cons_ok h
    obtain ⟨i2, m⟩ := addType_ok i e
    obtain ⟨i3, m2⟩ := addTypes_ok i2 h
    exact ⟨i3, by rw [m2, m]; simp⟩

theorem addLevels_ok {E : Env G K V} {c : DS K V} {s : Grib.St G} {lv : Levels} {r : DS K V × List ((ℤ × ℤ) × List String)}
    (h : addLevels E c s lv = .ok r) : TypesOk E lv c r ∧ r.2.map (·.1) = levelTypes s := by
  have := addTypes_ok (c0 := c) (E := E) (lv := lv) ⟨.refl c, by simp, by simp, by simp⟩ h
  simpa using this

theorem mem_insType (t u : ℤ × ℤ) : ∀ l, u ∈ insType t l ↔ u = t ∨ u ∈ l
  | [] => by simp [insType]
  | w :: l => by
    unfold insType
    split_ifs with h1 h2
    · simp
    · subst h2; simp
    · simp [mem_insType t u l]; tauto

theorem mem_levelTypes (s : Grib.St G) (t : ℤ × ℤ) : t ∈ levelTypes s ↔ ∃ n ∈ s.names, ∃ v, s.has n = some v ∧ v.levelType = t := by
  have key : ∀ (l : List (VarHas G)) (a : List (ℤ × ℤ)), t ∈ l.foldl (fun l v => insType v.levelType l) a ↔ t ∈ a ∨ ∃ v ∈ l, v.levelType = t := by
    intro l
    induction l with
    | nil => simp
    | cons v l ih =>
      intro a
      rw [List.foldl_cons, ih, mem_insType]
      simp only [List.mem_cons, exists_eq_or_imp]
      constructor
      · rintro ((h | h) | h)
        · exact .inr (.inl h.symm)
        · exact .inl h
        · exact .inr (.inr h)
      · rintro (h | h | h)
        · exact .inl (.inr h)
        · exact .inl (.inl h.symm)
        · exact .inr h
  unfold levelTypes
  rw [key]
  simp only [List.not_mem_nil, false_or, List.mem_filterMap]
  constructor
  · rintro ⟨v, ⟨n, h1, h2⟩, h3⟩; exact ⟨n, h1, v, h2, h3⟩
  · rintro ⟨n, h1, v, h2, h3⟩; exact ⟨v, ⟨n, h1, h2⟩, h3⟩

/-- `insType` keeps the types distinct. -/
theorem nodup_levelTypes (s : Grib.St G) : (levelTypes s).Nodup := by
  let lt : ℤ × ℤ → ℤ × ℤ → Prop := fun a b => a.1 < b.1 ∨ (a.1 = b.1 ∧ a.2 < b.2)
  have tr : ∀ a b c, lt a b → lt b c → lt a c := by
    intro a b c h g
    simp only [lt] at *
    omega
  have ins : ∀ (t : ℤ × ℤ) l, l.Pairwise lt → (insType t l).Pairwise lt := by
    intro t l
    induction l with
    | nil => simp [insType]
    | cons u l ih =>
      intro h
      rw [List.pairwise_cons] at h
      unfold insType
      split_ifs with h1 h2
      · rw [List.pairwise_cons]
        refine ⟨?_, List.pairwise_cons.2 h⟩
        intro x hx
        rcases List.mem_cons.1 hx with rfl | hx
        · exact h1
        · exact tr _ _ _ h1 (h.1 x hx)
      · exact List.pairwise_cons.2 h
      · rw [List.pairwise_cons]
        refine ⟨?_, ih h.2⟩
        intro x hx
        rcases (mem_insType t x l).1 hx with rfl | hx
        · simp only [lt]
          have : ¬ (x.1 = u.1 ∧ x.2 = u.2) := fun e => h2 (Prod.ext e.1 e.2)
          omega
        · exact h.1 x hx
  have key : ∀ (l : List (VarHas G)) (a : List (ℤ × ℤ)), a.Pairwise lt → (l.foldl (fun l v => insType v.levelType l) a).Pairwise lt := by
    intro l
    induction l with
    | nil => intro a h; exact h
    | cons v l ih => intro a h; exact ih _ (ins _ _ h)
  refine (key _ [] (by simp)).imp ?_
  intro a b h e
  subst e
  simp only [lt] at h
  omega

theorem levelName_spec {E : Env G K V} {lv : Levels} {c0 : DS K V} {st : DS K V × List ((ℤ × ℤ) × List String)} (i : TypesOk E lv c0 st)
    {t : ℤ × ℤ} {pos : ℕ} {n : String} (h : levelName st.2 t pos = .ok n) {l : List ℤ} (hl : (lv t)[pos]? = some l) :
    LevelOk E st.1 t (E.vertical t).head? pos l n ∧ hasDimension c0 n = false ∧ ∃ s, n = levelId t (E.vertical t).head? ++ s := by
  unfold levelName at h
  cases hf : st.2.find? fun p => p.1 = t with
  | none => rw [hf] at h; cases h
  | some p =>
    rw [hf] at h
    have h1 := List.mem_of_find?_eq_some hf
    have h2 : p.1 = t := by simpa using List.find?_some hf
    subst h2
    cases hg : p.2[pos]? with
    | none => simp [hg] at h
    | some n' =>
      simp [hg] at h
      subst h
      exact (i.entries p h1).2.2 pos n' l hg hl

/-! ## Variables -/

/-- The shape of a variable. -/
def shapeOf (p : PInfo) (v : VarHas G) (ens level time : String) : List String :=
  [p.xDim, p.yDim] ++ (if v.hasEns then [ens] else []) ++ [level] ++ (if v.hasTime then [time] else [])

/-- The attributes made for a variable. -/
def attrsOf (E : Env G K V) (p : PInfo) (n : String) : List (Attr V) :=
  E.attrs n ++ [⟨"grid_mapping", E.text p.gridMapping⟩] ++ (if p.coordinates = "" then [] else [⟨"coordinates", E.text p.coordinates⟩])

theorem addVar_ok [DecidableEq G] {E : Env G K V} {s : Grib.St G} {pos : String → ℕ} {ps : List (G × PInfo)} {names : List ((ℤ × ℤ) × List String)}
    {ens time : String} {c c' : DS K V} {n : String} (h : addVar E s pos ps names ens time c n = .ok c') :
    ∃ v p l, s.has n = some v ∧ (v.grid, p) ∈ ps ∧ levelName names v.levelType (pos n) = .ok l ∧ hasVariable c n = false ∧
      getVariable c' n = .ok ⟨n, shapeOf p v ens l time, ⟨E.type n, none⟩⟩ ∧
      (Wf c → n ≠ globalNS → getAttributes c' n = attrsOf E p n) ∧ (∀ m, m ≠ n → getAttributes c' m = getAttributes c m) ∧
      ((∀ x ∈ shapeOf p v ens l time, hasDimension c x = true) → Good c c') := by
  unfold addVar at h
  cases hv : s.has n with
  | none => rw [hv] at h; cases h
  | some v =>
    rw [hv] at h
    dsimp only at h
    cases hp : ps.find? fun p => p.1 = v.grid with
    | none => rw [hp] at h; cases h
    | some p =>
      rw [hp] at h
      dsimp only at h
      obtain ⟨l, e1, h⟩ := bind_ok h
      obtain ⟨c1, e2, h⟩ := bind_ok h
      have hm := List.mem_of_find?_eq_some hp
      have hg : p.1 = v.grid := by simpa using List.find?_some hp
      have h0 := (newVar_ok e2).1
      have ha := (newVar_ok e2).2.2.2.1
      obtain ⟨_, _, a3, a4, _⟩ := newAttrs_ok h
      have g2 := good_newAttrs h
      refine ⟨v, p.2, l, rfl, by rw [← hg]; exact hm, e1, h0, g2.grows.var (getVar_new e2), ?_, ?_, fun hs => (good_newVar e2 hs).trans g2⟩
      · intro w hn
        have : getAttributes c1 n = [] := by
          have := w.attrs n hn h0
          unfold getAttributes at *
          rw [ha]; exact this
        rw [a3, this]
        rfl
      · intro m hm
        rw [a4 m hm]
        unfold getAttributes
        rw [ha]

/-- What the variables are made of, in a dataset. -/
structure Base (E : Env G K V) (s : Grib.St G) (pos : String → ℕ) (ps : List (G × PInfo)) (names : List ((ℤ × ℤ) × List String)) (ens time : String)
    (c : DS K V) : Prop where
  grids : ∀ q ∈ ps, getDimension c q.2.xDim = .ok ⟨q.2.xDim, E.nx q.1, false⟩ ∧ getDimension c q.2.yDim = .ok ⟨q.2.yDim, E.ny q.1, false⟩
  levels : ∀ n v l, s.has n = some v → n ∈ s.names → levelName names v.levelType (pos n) = .ok l →
    getDimension c l = .ok ⟨l, v.levels.length, false⟩
  ens : ∀ n v, s.has n = some v → v.hasEns = true → getDimension c ens = .ok ⟨ens, s.maxEns, false⟩
  time : getDimension c time = .ok ⟨time, s.times.length, true⟩

theorem Base.grow {E : Env G K V} {s : Grib.St G} {pos : String → ℕ} {ps : List (G × PInfo)} {names : List ((ℤ × ℤ) × List String)} {ens time : String}
    {c c' : DS K V} (b : Base E s pos ps names ens time c) (g : Grows c c') : Base E s pos ps names ens time c' :=
  ⟨fun q hq => ⟨g.dim (b.grids q hq).1, g.dim (b.grids q hq).2⟩, fun n v l h1 h2 h3 => g.dim (b.levels n v l h1 h2 h3),
    fun n v h1 h2 => g.dim (b.ens n v h1 h2), g.dim b.time⟩

theorem Base.shape {E : Env G K V} {s : Grib.St G} {pos : String → ℕ} {ps : List (G × PInfo)} {names : List ((ℤ × ℤ) × List String)} {ens time : String}
    {c : DS K V} (b : Base E s pos ps names ens time c) {n : String} {v : VarHas G} {p : PInfo} {l : String} (hv : s.has n = some v)
    (hn : n ∈ s.names) (hp : (v.grid, p) ∈ ps) (hl : levelName names v.levelType (pos n) = .ok l) :
    ∀ x ∈ shapeOf p v ens l time, hasDimension c x = true := by
  intro x hx
  unfold shapeOf at hx
  simp only [List.mem_append, List.mem_cons, List.not_mem_nil, or_false] at hx
  rcases hx with (((rfl | rfl) | hx) | rfl) | hx
  · exact hasDim_iff.2 ⟨_, (b.grids _ hp).1⟩
  · exact hasDim_iff.2 ⟨_, (b.grids _ hp).2⟩
  · by_cases he : v.hasEns = true
    · rw [if_pos he] at hx
      simp at hx
      subst hx
      exact hasDim_iff.2 ⟨_, b.ens n v hv he⟩
    · rw [if_neg he] at hx; simp at hx
  · exact hasDim_iff.2 ⟨_, b.levels n v _ hv hn hl⟩
  · by_cases he : v.hasTime = true
    · rw [if_pos he] at hx
      simp at hx
      subst hx
      exact hasDim_iff.2 ⟨_, b.time⟩
    · rw [if_neg he] at hx; simp at hx

theorem addVars_ok [DecidableEq G] {E : Env G K V} {s : Grib.St G} {pos : String → ℕ} {ps : List (G × PInfo)} {names : List ((ℤ × ℤ) × List String)}
    {ens time : String} : ∀ {ns : List String} {c c' : DS K V}, Base E s pos ps names ens time c → Wf c → (∀ n ∈ ns, n ∈ s.names) → ns.Nodup →
      ns.foldlM (addVar E s pos ps names ens time) c = .ok c' → Good c c' ∧ (∀ m, m ∉ ns → getAttributes c' m = getAttributes c m) ∧
        ∀ n ∈ ns, ∃ v p l, s.has n = some v ∧ (v.grid, p) ∈ ps ∧ levelName names v.levelType (pos n) = .ok l ∧ hasVariable c n = false ∧
          getVariable c' n = .ok ⟨n, shapeOf p v ens l time, ⟨E.type n, none⟩⟩ ∧ (n ≠ globalNS → getAttributes c' n = attrsOf E p n)
  | [], c, c', _, _, _, _, h => by
    have : c = c' := by injection h
    subst this
    exact ⟨.refl c, fun _ _ => rfl, by simp⟩
  | n :: ns, c, c', b, w, hs, hd, h => by
    obtain ⟨c1, e, h⟩ := foldlM_cons_ok h
    rw [List.nodup_cons] at hd
    obtain ⟨v, p, l, q1, q2, q3, q4, q5, q6, q7, q8⟩ := addVar_ok e
    have g1 := q8 (b.shape q1 (hs n (by simp)) q2 q3)
    obtain ⟨g2, r1, r2⟩ := addVars_ok (b.grow g1.grows) (g1.wf w) (fun m hm => hs m (by simp [hm])) hd.2 h
    refine ⟨g1.trans g2, ?_, ?_⟩
    · intro m hm
      rw [r1 m (fun e => hm (by simp [e])), q7 m (fun e => hm (by simp [e]))]
    · intro m hm
      rcases List.mem_cons.1 hm with rfl | hm
      · exact ⟨v, p, l, q1, q2, q3, q4, g2.grows.var q5, fun hg => by rw [r1 m hd.1]; exact q6 w hg⟩
      · obtain ⟨v', p', l', z1, z2, z3, z4, z5⟩ := r2 m hm
        refine ⟨v', p', l', z1, z2, z3, ?_, z5⟩
        cases hq : hasVariable c m with
        | false => rfl
        | true =>
          exfalso
          obtain ⟨k, hk⟩ := g1.grows.vars
          rw [hasVar_names, ← hk, List.map_append, List.mem_append] at z4
          have : ¬ hasVariable c m = false := by rw [hq]; simp
          rw [hasVar_names] at this
          exact this fun e => z4 (.inl e)

/-! ## The whole dataset -/

/-- Everything about a dataset that was made. -/
theorem build_ok [DecidableEq G] {same : G → G → Bool} {ms : List (Msg G)} {s : Grib.St G} (hl : loadAll same (St.init G) ms = .ok s) {E : Env G K V}
    {gs : List (G × String)} {ref : Option ℕ} {b : Built G K V} (hb : buildDataset E s gs ref = .ok b) :
    ∃ c0 c1 c2 c3, GridsOk E gs (c0, b.projections) ∧ addTime E c0 s.times ref = .ok (c1, b.time) ∧ Good c1 c2 ∧
      addEnsembles E c2 s.maxEns = .ok (c3, b.ens) ∧ ∃ c4, TypesOk E (buildLevels s.has s.names (fun _ => []) (fun _ => 0)).1 c3 (c4, b.levels) ∧
        b.levels.map (·.1) = levelTypes s ∧ Wf c4 ∧ Good c4 b.cdm ∧ Grows c0 c4 ∧
        Base E s (buildLevels s.has s.names (fun _ => []) (fun _ => 0)).2 b.projections b.levels b.ens b.time b.cdm ∧
        ∀ n ∈ s.names, ∃ v p l, s.has n = some v ∧ (v.grid, p) ∈ b.projections ∧
          levelName b.levels v.levelType ((buildLevels s.has s.names (fun _ => []) (fun _ => 0)).2 n) = .ok l ∧ hasVariable c4 n = false ∧
          getVariable b.cdm n = .ok ⟨n, shapeOf p v b.ens l b.time, ⟨E.type n, none⟩⟩ ∧ (n ≠ globalNS → getAttributes b.cdm n = attrsOf E p n) := by
  have H : Holds ms s := by
    rcases loadAll_cases same ms [] (St.init G) holds_init with ⟨_, s', e, h⟩ | ⟨_, e⟩
    · rw [e] at hl; injection hl with hl; subst hl; simpa using h
    · rw [e] at hl; cases hl
  have hnd : s.names.Nodup := sorted_nodup H.names.1
  unfold buildDataset at hb
  dsimp only at hb
  obtain ⟨p, e1, hb⟩ := bind_ok hb
  obtain ⟨ct, e2, hb⟩ := bind_ok hb
  obtain ⟨c2, e3, hb⟩ := bind_ok hb
  obtain ⟨ce, e4, hb⟩ := bind_ok hb
  obtain ⟨cl, e5, hb⟩ := bind_ok hb
  obtain ⟨c5, e6, hb⟩ := bind_ok hb
  injection hb with hb
  subst hb
  have i : GridsOk E gs p := by
    have := projections_ok (before := []) ⟨wf_empty, by simp, by simp, by simp⟩ e1
    rwa [List.nil_append] at this
  obtain ⟨g1, t1, t2, _⟩ := addTime_ok e2
  have g2 := addGlobals_ok e3
  obtain ⟨g3, n1⟩ := addEnsembles_ok e4
  obtain ⟨ty, m1⟩ := addLevels_ok e5
  have g4 : Good p.1 cl.1 := ((g1.trans g2).trans g3).trans ty.good
  have hmax : ∀ n v, s.has n = some v → v.hasEns = true → 1 < s.maxEns := by
    intro n v hv he
    cases hf : ms.find? fun m => decide (m.name = n) with
    | none => rw [(H.unknown n).2 hf] at hv; cases hv
    | some f =>
      have h1 := List.mem_of_find?_eq_some hf
      have h2 := (H.first n v f hv hf).2.1
      rw [he] at h2
      have h3 : f.total > 1 := by simpa using h2.symm
      have := (H.ens f h1 h3).1
      omega
  have base : Base E s (buildLevels s.has s.names (fun _ => []) (fun _ => 0)).2 p.2 cl.2 ce.2 ct.2 cl.1 := by
    refine ⟨?_, ?_, ?_, ((g2.trans g3).trans ty.good).grows.dim t2⟩
    · intro q hq
      obtain ⟨k, hk⟩ := List.getElem?_of_mem hq
      obtain ⟨T, _, h⟩ := i.entries k q hk
      exact ⟨(h.grow g4.grows).dx, (h.grow g4.grows).dy⟩
    · intro n v l hv hn hq
      exact (levelName_spec ty hq (buildLevels_spec s.has s.names _ _ hnd n v hn hv)).1.dim
    · intro n v hv he
      have := hmax n v hv he
      rcases n1 with ⟨n1, _⟩ | ⟨_, _, n3, _⟩
      · omega
      · exact ty.good.grows.dim n3
  obtain ⟨g5, _, vs⟩ := addVars_ok base (g4.wf i.wf) (fun n h => h) hnd e6
  exact ⟨p.1, ct.1, c2, ce.1, i, e2, g2, e4, cl.1, ty, m1, g4.wf i.wf, g5, g4.grows, base.grow g5.grows, vs⟩

/-! ## Names of members -/

/-- A name, filled with zeros. -/
def padded (m : ℕ) (id : List Char) : List Char := id ++ List.replicate (m - id.length) (Char.ofNat 0)

theorem le_maxLen : ∀ (l : List (List Char)) (k : ℕ), k ≤ l.foldl (fun m i => max m i.length) k ∧ ∀ id ∈ l, id.length ≤ l.foldl (fun m i => max m i.length) k
  | [], k => by simp
  | a :: l, k => by
    obtain ⟨h1, h2⟩ := le_maxLen l (max k a.length)
    rw [List.foldl_cons]
    refine ⟨by omega, ?_⟩
    intro id hid
    rcases List.mem_cons.1 hid with rfl | hid
    · omega
    · exact h2 id hid

theorem nameFold (m : ℕ) : ∀ (l : List (List Char)) (k : ℕ) (pre : List Char), pre.length = k * m → (∀ id ∈ l, id.length ≤ m) →
    (l.zipIdx k).foldl (fun buf p => buf.take (p.2 * m) ++ p.1 ++ buf.drop (p.2 * m + p.1.length)) (pre ++ List.replicate (m * l.length) (Char.ofNat 0)) =
      pre ++ l.flatMap (padded m)
  | [], k, pre, _, _ => by simp
  | a :: l, k, pre, hp, hl => by
    have ha : a.length ≤ m := hl a (by simp)
    rw [List.zipIdx_cons, List.foldl_cons]
    have e1 : (pre ++ List.replicate (m * (a :: l).length) (Char.ofNat 0)).take (k * m) = pre := by
      rw [← hp]; simp
    have e2 : (pre ++ List.replicate (m * (a :: l).length) (Char.ofNat 0)).drop (k * m + a.length) =
        List.replicate (m - a.length) (Char.ofNat 0) ++ List.replicate (m * l.length) (Char.ofNat 0) := by
      rw [← hp, ← List.drop_drop, List.drop_left, List.drop_replicate, List.replicate_append_replicate]
      congr 1
      simp only [List.length_cons, Nat.mul_add, Nat.mul_one]
      omega
    dsimp only
    rw [e1, e2]
    have := nameFold m l (k + 1) (pre ++ padded m a) (by simp [padded, hp, Nat.add_mul]; omega) (fun id h => hl id (by simp [h]))
    unfold padded at this
    simp only [List.append_assoc, List.flatMap_cons] at this ⊢
    rw [this]
    simp [padded, List.append_assoc]
    rfl

theorem nameText_eq (ids : List (List Char)) : nameText ids = ids.flatMap (padded (maxLen ids)) := by
  unfold nameText
  have := nameFold (maxLen ids) ids 0 [] (by simp) (le_maxLen ids 0).2
  simpa using this

theorem flatMap_slice (m : ℕ) : ∀ (l : List (List Char)) (i : ℕ) (id : List Char), (∀ x ∈ l, x.length ≤ m) → l[i]? = some id →
    ((l.flatMap (padded m)).drop (i * m)).take m = padded m id
  | [], _, _, _, h => by simp at h
  | a :: l, i, id, hl, h => by
    have hpl : ∀ x : List Char, x.length ≤ m → (padded m x).length = m := by intro x hx; simp [padded]; omega
    cases i with
    | zero =>
      simp at h
      subst h
      rw [List.flatMap_cons, Nat.zero_mul, List.drop_zero, List.take_append_of_le_length (by rw [hpl a (hl a (by simp))])]
      rw [List.take_of_length_le (by rw [hpl a (hl a (by simp))])]
    | succ i =>
      simp at h
      rw [List.flatMap_cons, show (i + 1) * m = (padded m a).length + i * m by rw [hpl a (hl a (by simp))]; ring, ← List.drop_drop, List.drop_left]
      exact flatMap_slice m l i id (fun x hx => hl x (by simp [hx])) h

end Fimex.GribData
