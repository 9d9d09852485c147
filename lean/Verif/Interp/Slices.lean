import Verif.Interp.ReducedProps
import Verif.Slice.Props
import Verif.SliceBuilder.Props

/-!
# Slices of interpolated variables

Model of `CDMInterpolator::getDataSlice` with a slice builder, `src/CDMInterpolator.cc:212-272`, `processArray_`,
`src/CDMInterpolator.cc:163-190`, and of `getInputDataSlice` and `getOutputDataSlice`, `src/CachedInterpolation.cc:90-130`;
theorems (C79).

The reader, the conversions of values (elementwise), the interpolation of the array and the rotation are parameters.
-/

namespace Fimex.Interp

variable {β V : Type}

/-! ## Model -/

/-- The members of `CachedInterpolationInterface` used for slicing; `origin` is the reduced domain, whose dimension names are
always those of the interpolation (include/fimex/CachedInterpolation.h:58-90). -/
structure SliceCache where
  xDim : String
  yDim : String
  inX : ℕ
  inY : ℕ
  outX : ℕ
  outY : ℕ
  origin : Option (ℕ × ℕ)

/-- A variable of the reader: dimensions and the data for start positions and sizes. -/
structure Input (β : Type) where
  names : List String
  sizes : List ℕ
  unlim : List Bool
  read : List ℕ → List ℕ → Res (List β)

/-- A call of `setStartAndSize` whose exception is not caught. -/
def setDim (b : SB.Builder) (dn : String) (start size : ℕ) : Res SB.Builder :=
  match SB.setStartAndSize b dn start size with
  | (b', .ok _) => .ok b'
  | (_, .throws) => .throws
  | (_, .ub) => .ub

/-- src/CachedInterpolation.cc:105-106: the part of the request for a dimension is handed on. -/
def handOn (sb rsb : SB.Builder) (dn : String) : Res SB.Builder := do
  let r ← SB.getStartAndSize sb dn
  setDim rsb dn r.1 r.2

/-- src/CachedInterpolation.cc:95-107: one dimension. -/
def inputDim (c : SliceCache) (sb rsb : SB.Builder) (dn : String) : Res SB.Builder :=
  match c.origin with
  | some o =>
    if dn = c.xDim then setDim rsb dn o.1 c.inX
    else if dn = c.yDim then setDim rsb dn o.2 c.inY
    else handOn sb rsb dn
  | none => if dn = c.xDim ∨ dn = c.yDim then .ok rsb else handOn sb rsb dn

/-- src/CachedInterpolation.cc:90-110 `getInputDataSlice` with a slice builder. -/
def getInputDataSlice (c : SliceCache) (v : Input β) (sb : SB.Builder) : Res (List β) := do
  let rsb ← SB.init v.names v.sizes v.unlim
  let rsb ← v.names.foldlM (inputDim c sb) rsb
  v.read rsb.start rsb.size

/-- src/CachedInterpolation.cc:119-126: start and extent used for a dimension of the interpolated data. -/
def outputDim (c : SliceCache) (dn : String) (start size mx : ℕ) : ℕ × ℕ :=
  if dn = c.xDim ∨ dn = c.yDim then (start, mx) else (0, size)

/-- src/CachedInterpolation.cc:111-130 `getOutputDataSlice`; `names` are the dimensions of the request. -/
def getOutputDataSlice (c : SliceCache) (names : List String) (sb : SB.Builder) (data : List β) : Res (List β) :=
  let d := (List.range names.length).map fun i =>
    outputDim c (names.getD i "") (sb.start.getD i 0) (sb.size.getD i 0) (sb.maxSize.getD i 0)
  Slice.slice data (d.map (·.2)) (d.map (·.1)) sb.size

/-- src/CDMInterpolator.cc:163-190 `processArray_`: all processes on all layers.  A process changes its layer only
(simplification).  The failing assertion counts as undefined. -/
def processArray (ps : List (List V → Res (List V))) (a : List V) (nx ny : ℕ) : Res (List V) :=
  if ps.isEmpty then .ok a
  else if nx * ny = 0 then .ub
  else if a.length / (nx * ny) * (nx * ny) ≠ a.length then .ub
  else do
    let layers ← (List.range (a.length / (nx * ny))).mapM fun z =>
      ps.foldlM (fun l p => p l) ((a.drop (z * (nx * ny))).take (nx * ny))
    .ok layers.flatten

/-- The other component of a vector: its data and conversion, and the rotation of both. -/
structure Counterpart (β V : Type) where
  input : Input β
  dec : β → V
  rotate : List V → List V → Res (List V × List V)
  isX : Bool

/-- What `getDataSlice` uses for a variable. -/
structure Setting (β V : Type) where
  cache : SliceCache
  input : Input β
  dec : β → V
  enc : V → β
  pre : List (List V → Res (List V))
  post : List (List V → Res (List V))
  interp : List V → Res (List V)
  counterpart : Option (Counterpart β V)

/-- src/CDMInterpolator.cc:236-263: rotation with the other component, of which as many values are processed as the variable
has. -/
def withCounterpart (s : Setting β V) (sb : SB.Builder) (size : ℕ) (arr : List V) : Res (List V) :=
  match s.counterpart with
  | none => .ok arr
  | some q => do
    let cdata ← getInputDataSlice s.cache q.input sb
    if cdata.length < size then .ub
    else do
      let carr ← processArray s.pre ((cdata.map q.dec).take size) s.cache.inX s.cache.inY
      let ci ← s.interp carr
      let r ← if q.isX then q.rotate arr ci else q.rotate ci arr
      .ok (if q.isX then r.1 else r.2)

/-- src/CDMInterpolator.cc:212-272 `getDataSlice` of an interpolated variable; `names` are the dimensions of the variable
in the output. -/
def getDataSlice (s : Setting β V) (names : List String) (sb : SB.Builder) : Res (List β) := do
  let data ← getInputDataSlice s.cache s.input sb
  if data.length = 0 then .ok data
  else do
    let arr ← processArray s.pre (data.map s.dec) s.cache.inX s.cache.inY
    let i ← s.interp arr
    let i ← withCounterpart s sb data.length i
    let i ← processArray s.post i s.cache.outX s.cache.outY
    getOutputDataSlice s.cache names sb (i.map s.enc)

/-! ## Specification -/

/-- The part of a field of shape `dims` from `start` on with extent `size`. -/
def window (dims start size : List ℕ) (f : List β) : List β :=
  (cells size).filterMap fun j => f[pos dims (addIdx start j)]?

/-- Layer `r` of a field whose layers have the shape `a`, and whose other dimensions are `rest`. -/
def layer (a rest r : List ℕ) (f : List β) : List β := (f.drop (pos rest r * a.prod)).take a.prod

/-- `f` works on each of up to `N` layers of length `m` alone, as `g` does, which gives layers of length `n`. -/
def LayerWise (N m n : ℕ) (f : List V → Res (List V)) (g : List V → List V) : Prop :=
  (∀ l, l.length = m → (g l).length = n) ∧
    ∀ ls : List (List V), ls.length ≤ N → (∀ l ∈ ls, l.length = m) → f ls.flatten = .ok (ls.map g).flatten

/-- Like `LayerWise`, for the rotation of two fields. -/
def LayerWise2 (N n : ℕ) (f : List V → List V → Res (List V × List V)) (g : List V → List V → List V × List V) : Prop :=
  (∀ l l', l.length = n → l'.length = n → (g l l').1.length = n ∧ (g l l').2.length = n) ∧
    ∀ ls : List (List V × List V), ls.length ≤ N → (∀ l ∈ ls, l.1.length = n ∧ l.2.length = n) →
      f (ls.map (·.1)).flatten (ls.map (·.2)).flatten =
        .ok ((ls.map fun l => (g l.1 l.2).1).flatten, (ls.map fun l => (g l.1 l.2).2).flatten)

/-! ## Lemmas -/

theorem cells_append (a b : List ℕ) : cells (a ++ b) = (cells b).flatMap fun r => (cells a).map (· ++ r) := by
  induction a with
  | nil => simp [cells]
  | cons n a ih =>
    rw [List.cons_append, cells, ih, cells, List.flatMap_assoc]
    refine List.flatMap_congr fun r _ => ?_
    rw [List.map_flatMap, List.flatMap_map]
    simp [Function.comp_def]

theorem pos_append : ∀ (a i : List ℕ) (b j : List ℕ), i.length = a.length →
    pos (a ++ b) (i ++ j) = pos a i + a.prod * pos b j
  | [], [], b, j, _ => by simp [pos]
  | n :: a, x :: i, b, j, h => by
    have h' : i.length = a.length := by simpa using h
    simp only [List.cons_append, pos, pos_append a i b j h', List.prod_cons]
    rw [Nat.mul_add, Nat.add_assoc, Nat.mul_assoc]
  | [], _ :: _, _, _, h => by simp at h
  | _ :: _, [], _, _, h => by simp at h

theorem addIdx_append (a b c d : List ℕ) (h : a.length = b.length) : addIdx (a ++ c) (b ++ d) = addIdx a b ++ addIdx c d := by
  unfold addIdx
  exact List.zipWith_append h

theorem RegionIn_append : ∀ {a s w b t z : List ℕ}, RegionIn a s w → RegionIn b t z → RegionIn (a ++ b) (s ++ t) (w ++ z)
  | [], [], [], _, _, _, _, h => h
  | _ :: _, _ :: _, _ :: _, _, _, _, h, h' => ⟨h.1, RegionIn_append h.2 h'⟩
  | [], [], _ :: _, _, _, _, h, _ => h.elim
  | [], _ :: _, _, _, _, _, h, _ => h.elim
  | _ :: _, [], _, _, _, _, h, _ => h.elim
  | _ :: _, _ :: _, [], _, _, _, h, _ => h.elim

/-- Slices of data put together from layers. -/
theorem slice_layers (a s w rest t z : List ℕ) (H : List ℕ → List β) (hne : a ≠ [])
    (hH : ∀ r, InShape rest r → (H r).length = a.prod)
    (h1 : RegionIn a s w) (h2 : RegionIn rest t z) (hd : ∀ n ∈ a ++ rest, n < two64) :
    Slice.slice ((cells rest).map H).flatten (a ++ rest) (s ++ t) (w ++ z) =
      .ok ((cells z).flatMap fun r => window a s w (H (addIdx t r))) := by
  have hlen : ((cells rest).map H).flatten.length = (a ++ rest).prod := by
    rw [← List.flatMap_def, length_flatMap_const _ _ a.prod (fun r hr => hH r (mem_cells.1 hr)), cells_length, List.prod_append,
      Nat.mul_comm]
  obtain ⟨out, e, g⟩ := Slice.slice_ok ((cells rest).map H).flatten (a ++ rest) (s ++ t) (w ++ z)
    (by simp [hne]) (RegionIn_append h1 h2) hd hlen.symm
  rw [e]
  congr 1
  refine (List.map_inj_right (fun _ _ h => Option.some.inj h)).1 (g.trans ?_)
  rw [cells_append, List.map_flatMap, List.map_flatMap]
  refine List.flatMap_congr fun r hr => ?_
  have hr := mem_cells.1 hr
  have hr' := h2.shift hr
  rw [List.map_map]
  unfold window
  have hget : ∀ j, InShape w j → ((cells rest).map H).flatten[pos (a ++ rest) (addIdx (s ++ t) (j ++ r))]? =
      (H (addIdx t r))[pos a (addIdx s j)]? ∧ pos a (addIdx s j) < (H (addIdx t r)).length := by
    intro j hj
    obtain ⟨l1, l2⟩ := h1.lengths
    have hj' := h1.shift hj
    have hlt := pos_lt hj'
    rw [addIdx_append _ _ _ _ (by rw [l1, InShape.length_eq hj, l2]), pos_append _ _ _ _ (InShape.length_eq hj'),
      Nat.add_comm, ← List.flatMap_def, getElem?_flatMap_const _ _ a.prod (fun r hr => hH r (mem_cells.1 hr)) _ _ hlt,
      cells_getElem? hr']
    exact ⟨rfl, by rw [hH _ hr']; exact hlt⟩
  have : ∀ l : List (List ℕ), (∀ j ∈ l, InShape w j) →
      l.map ((fun j => ((cells rest).map H).flatten[pos (a ++ rest) (addIdx (s ++ t) j)]?) ∘ fun x => x ++ r) =
        (l.filterMap fun j => (H (addIdx t r))[pos a (addIdx s j)]?).map some := by
    intro l
    induction l with
    | nil => intro _; rfl
    | cons j l ih =>
      intro hl
      obtain ⟨g1, g2⟩ := hget j (hl j (by simp))
      rw [List.map_cons, ih fun j hj => hl j (by simp [hj]), Function.comp_apply, g1, List.getElem?_eq_getElem g2,
        List.filterMap_cons, List.getElem?_eq_getElem g2, List.map_cons]
  exact this _ fun j hj => mem_cells.1 hj

theorem layers_eq (a rest : List ℕ) (F : List β) (hF : F.length = (a ++ rest).prod) :
    F = ((cells rest).map fun r => layer a rest r F).flatten := by
  rw [List.prod_append] at hF
  have hl : ∀ r ∈ cells rest, (layer a rest r F).length = a.prod := by
    intro r hr
    have := pos_lt (mem_cells.1 hr)
    have h2 : (pos rest r + 1) * a.prod ≤ rest.prod * a.prod := Nat.mul_le_mul_right _ this
    unfold layer
    rw [List.length_take, List.length_drop, hF]
    rw [Nat.add_mul] at h2
    rw [Nat.mul_comm a.prod]
    omega
  have hlen : ((cells rest).map fun r => layer a rest r F).flatten.length = F.length := by
    rw [← List.flatMap_def, length_flatMap_const _ _ a.prod hl, cells_length, hF, Nat.mul_comm]
  refine List.ext_getElem? fun k => ?_
  rcases Nat.lt_or_ge k F.length with hk | hk
  · have ha : 0 < a.prod := by
      rcases Nat.eq_zero_or_pos a.prod with h | h
      · rw [hF, h] at hk; omega
      · exact h
    have hq : k / a.prod < rest.prod := Nat.div_lt_of_lt_mul (by omega)
    obtain ⟨r, hr, e⟩ := exists_pos hq
    have hm := Nat.mod_lt k ha
    have hk2 : k = a.prod * (k / a.prod) + k % a.prod := (Nat.div_add_mod k a.prod).symm
    have := getElem?_flatMap_const (cells rest) (fun r => layer a rest r F) a.prod hl (k / a.prod) (k % a.prod) hm
    rw [List.flatMap_def, ← hk2, ← e, cells_getElem? hr] at this
    rw [this, Option.bind_some]
    unfold layer
    rw [List.getElem?_take_of_lt hm, List.getElem?_drop, e, Nat.mul_comm, ← hk2]
  · rw [List.getElem?_eq_none hk, List.getElem?_eq_none (hlen ▸ hk)]

theorem layer_length (a rest r : List ℕ) (F : List β) (hF : F.length = (a ++ rest).prod) (hr : InShape rest r) :
    (layer a rest r F).length = a.prod := by
  rw [List.prod_append] at hF
  have := pos_lt hr
  have h2 : (pos rest r + 1) * a.prod ≤ rest.prod * a.prod := Nat.mul_le_mul_right _ this
  unfold layer
  rw [List.length_take, List.length_drop, hF]
  rw [Nat.add_mul] at h2
  rw [Nat.mul_comm a.prod]
  omega

theorem window_length (a s w : List ℕ) (f : List β) (h : RegionIn a s w) (hf : f.length = a.prod) :
    (window a s w f).length = w.prod := by
  unfold window
  have : ∀ l : List (List ℕ), (∀ j ∈ l, InShape w j) →
      (l.filterMap fun j => f[pos a (addIdx s j)]?).length = l.length := by
    intro l
    induction l with
    | nil => intro _; rfl
    | cons j l ih =>
      intro hl
      have g2 : pos a (addIdx s j) < f.length := hf ▸ pos_lt (h.shift (hl j (by simp)))
      rw [List.filterMap_cons, List.getElem?_eq_getElem g2]
      simp only [List.length_cons]
      rw [ih fun j hj => hl j (by simp [hj])]
  rw [this _ fun j hj => mem_cells.1 hj, cells_length]

/-! ### Requests -/

theorem run_shape {names : List String} {sizes : List ℕ} {unl : List Bool} {b0 : SB.Builder}
    (hi : SB.init names sizes unl = .ok b0) (cs : List SB.Call) :
    SB.Shape names.length sizes unl (SB.fillDimPos 0 names []) (SB.run b0 cs).1 := by
  obtain ⟨hs, -⟩ := SB.init_shape hi
  let len : String → Nat := fun n => match SB.mapGet (SB.fillDimPos 0 names []) n with
    | some p => sizes.getD p 0
    | none => 0
  have hlen : ∀ k p, SB.mapGet (SB.fillDimPos 0 names []) k = some p → sizes[p]? = some (len k) := by
    intro k p hp
    have : p < sizes.length := by rw [hs.ls]; exact hs.lt k p hp
    simp [len, hp, this]
  clear hi
  induction cs generalizing b0 with
  | nil => exact hs
  | cons c cs ih =>
    rcases hs.call_cases len hlen c with e | ⟨e, -⟩ | ⟨n, st, sz, p, -, -, -, -, e⟩
    · simp only [SB.run, e]; exact ih hs
    · simp only [SB.run, e]; exact ih hs
    · simp only [SB.run, e]; exact ih (hs.write p st sz _)

theorem setDim_ok {N : ℕ} {sizes : List ℕ} {unl : List Bool} {dm : List (String × ℕ)} {b : SB.Builder}
    (h : SB.Shape N sizes unl dm b) {dn : String} {p st sz mx : ℕ} (hp : SB.mapGet dm dn = some p) (hm : sizes[p]? = some mx)
    (hin : st + sz ≤ mx) (h64 : mx < two64) :
    ∃ b', setDim b dn st sz = .ok b' ∧ SB.Shape N sizes unl dm b' ∧ b'.start = b.start.set p st ∧ b'.size = b.size.set p sz := by
  rcases h.set_cases dn st sz with e | ⟨p', hp', -, -, e⟩
  · exfalso
    have hlt := h.lt _ _ hp
    have hu : p < b.unlimited.length := by rw [h.un, h.lu]; exact hlt
    have hs : p < b.start.length := by rw [h.st]; exact hlt
    have hz : p < b.size.length := by rw [h.sz]; exact hlt
    have hd : SB.getDimPos b dn = .ok p := by simp [SB.getDimPos, h.dp, hp]
    have hw : wadd st sz = st + sz := wadd_eq (by omega)
    unfold SB.setStartAndSize at e
    rw [hd] at e
    simp only [SB.at', h.mx, hm, List.getElem?_eq_getElem hu, hw] at e
    rw [if_neg (by omega), if_neg (by omega), if_neg (by simpa using hz)] at e
    simp at e
  · rw [hp] at hp'
    obtain rfl := Option.some.inj hp'
    refine ⟨_, by unfold setDim; rw [e], h.write p st sz _, rfl, rfl⟩

theorem getStartAndSize_ok {N : ℕ} {sizes : List ℕ} {unl : List Bool} {dm : List (String × ℕ)} {b : SB.Builder}
    (h : SB.Shape N sizes unl dm b) {dn : String} {p st sz : ℕ} (hp : SB.mapGet dm dn = some p) (h1 : b.start[p]? = some st)
    (h2 : b.size[p]? = some sz) : SB.getStartAndSize b dn = .ok (st, sz) := by
  simp [SB.getStartAndSize, SB.getDimPos, h.dp, hp, SB.at', h1, h2]

theorem region_prod : ∀ {d s z : List ℕ}, RegionIn d s z → z.prod ≤ d.prod
  | [], [], [], _ => le_refl _
  | _ :: _, _ :: _, _ :: _, h => by
    rw [List.prod_cons, List.prod_cons]
    exact Nat.mul_le_mul (by have := h.1; omega) (region_prod h.2)
  | [], [], _ :: _, h => h.elim
  | [], _ :: _, _, h => h.elim
  | _ :: _, [], _, h => h.elim
  | _ :: _, _ :: _, [], h => h.elim

/-- What the loop over the dimensions asks for. -/
theorem inputDims (c : SliceCache) (names : List String) (sizes : List ℕ) (unl : List Bool) (sb : SB.Builder) (hn : names.Nodup)
    (tst tsz : List ℕ) (hl : sizes.length = names.length) (hreg : RegionIn sizes tst tsz) (h64 : ∀ n ∈ sizes, n < two64)
    (hstep : ∀ (i : ℕ) dn rsb, names[i]? = some dn →
      (∃ st sz, tst[i]? = some st ∧ tsz[i]? = some sz ∧ inputDim c sb rsb dn = setDim rsb dn st sz) ∨
      (tst[i]? = some 0 ∧ tsz[i]? = sizes[i]? ∧ inputDim c sb rsb dn = .ok rsb)) :
    ∀ k rsb, SB.Shape names.length sizes unl (SB.fillDimPos 0 names []) rsb → k ≤ names.length →
      (∀ i : ℕ, i < names.length - k → rsb.start[i]? = tst[i]? ∧ rsb.size[i]? = tsz[i]?) →
      (∀ i : ℕ, names.length - k ≤ i → i < names.length → rsb.start[i]? = some 0 ∧ rsb.size[i]? = sizes[i]?) →
      ∃ r, (names.drop (names.length - k)).foldlM (inputDim c sb) rsb = .ok r ∧ r.start = tst ∧ r.size = tsz := by
  obtain ⟨lt1, lt2⟩ := hreg.lengths
  have hfill : SB.fillDimPos 0 names [] = names.zipIdx := by simpa using SB.fill_eq names 0 [] hn (by simp)
  intro k
  induction k with
  | zero =>
    intro rsb hs _ h1 _
    refine ⟨rsb, by simp, ?_, ?_⟩
    · refine List.ext_getElem? fun i => ?_
      rcases Nat.lt_or_ge i names.length with hi | hi
      · exact (h1 i (by omega)).1
      · rw [List.getElem?_eq_none (by rw [hs.st]; exact hi), List.getElem?_eq_none (by omega)]
    · refine List.ext_getElem? fun i => ?_
      rcases Nat.lt_or_ge i names.length with hi | hi
      · exact (h1 i (by omega)).2
      · rw [List.getElem?_eq_none (by rw [hs.sz]; exact hi), List.getElem?_eq_none (by omega)]
  | succ k ih =>
    intro rsb hs hk h1 h2
    have hlt : names.length - (k + 1) < names.length := by omega
    have e1 : names.length - (k + 1) + 1 = names.length - k := by omega
    rw [List.drop_eq_getElem_cons hlt, e1, List.foldlM_cons]
    have hget : names[names.length - (k + 1)]? = some names[names.length - (k + 1)] := List.getElem?_eq_getElem hlt
    have hmap : SB.mapGet (SB.fillDimPos 0 names []) names[names.length - (k + 1)] = some (names.length - (k + 1)) := by
      rw [hfill]; simpa using SB.mapGet_zipIdx names 0 hn _ _ hget
    generalize hi0 : names.length - (k + 1) = i0 at *
    rcases hstep i0 _ rsb hget with ⟨st, sz, t1, t2, e⟩ | ⟨t1, t2, e⟩
    · have hmx : sizes[i0]? = some sizes[i0] := List.getElem?_eq_getElem (by omega)
      have hin : st + sz ≤ sizes[i0] := by
        have := hreg.get i0
        simpa [List.getD_eq_getElem?_getD, t1, t2, hmx] using this
      obtain ⟨b', eb, hs', hb1, hb2⟩ := setDim_ok hs hmap hmx hin (h64 _ (List.getElem_mem _))
      rw [e, eb, Res.ok_bind]
      have l1 : i0 < rsb.start.length := by rw [hs.st]; exact hlt
      have l2 : i0 < rsb.size.length := by rw [hs.sz]; exact hlt
      refine ih b' hs' (by omega) (fun i hi => ?_) (fun i hi hi' => ?_)
      · rw [hb1, hb2]
        rcases Nat.lt_or_ge i i0 with h | h
        · rw [List.getElem?_set_ne (by omega), List.getElem?_set_ne (by omega)]
          exact h1 i h
        · obtain rfl : i = i0 := by omega
          rw [t1, t2]
          simp [l1, l2]
      · rw [hb1, hb2, List.getElem?_set_ne (by omega), List.getElem?_set_ne (by omega)]
        exact h2 i (by omega) hi'
    · rw [e, Res.ok_bind]
      refine ih rsb hs (by omega) (fun i hi => ?_) (fun i hi hi' => h2 i (by omega) hi')
      rcases Nat.lt_or_ge i i0 with h | h
      · exact h1 i h
      · obtain rfl : i = i0 := by omega
        rw [t1, t2]
        exact h2 i (le_refl _) hlt

/-- Where the input of the interpolation is within the grid of the variable: everything, or the reduced domain. -/
def domainStart (c : SliceCache) : List ℕ :=
  match c.origin with
  | none => [0, 0]
  | some o => [o.1, o.2]

/-- The sizes stored for the interpolation belong to a grid of `nx` by `ny` cells. -/
def DomainOf (c : SliceCache) (nx ny : ℕ) : Prop :=
  match c.origin with
  | none => c.inX = nx ∧ c.inY = ny
  | some o => o.1 + c.inX ≤ nx ∧ o.2 + c.inY ≤ ny

/-- The part of layer `r` of a variable that is interpolated. -/
def inputLayer (c : SliceCache) (nx ny : ℕ) (rest : List ℕ) (F : List β) (r : List ℕ) : List β :=
  window [nx, ny] (domainStart c) [c.inX, c.inY] (layer [nx, ny] rest r F)

/-- A variable with the dimensions x, y and `rest`, whose values are those of the field `F`. -/
structure Holds (v : Input β) (c : SliceCache) (restNames : List String) (nx ny : ℕ) (rest : List ℕ) (F : List β) : Prop where
  names : v.names = c.xDim :: c.yDim :: restNames
  sizes : v.sizes = nx :: ny :: rest
  unlim : v.unlim.length = v.names.length
  data : F.length = nx * ny * rest.prod
  read : ∀ st sz, RegionIn (nx :: ny :: rest) st sz → v.read st sz = Slice.slice F (nx :: ny :: rest) st sz

theorem domain_region {c : SliceCache} {nx ny : ℕ} (h : DomainOf c nx ny) :
    RegionIn [nx, ny] (domainStart c) [c.inX, c.inY] := by
  unfold DomainOf at h
  unfold domainStart
  cases ho : c.origin with
  | none => rw [ho] at h; exact ⟨by omega, by omega, trivial⟩
  | some o => rw [ho] at h; exact ⟨h.1, h.2, trivial⟩

theorem inputLayer_length {c : SliceCache} {nx ny : ℕ} {rest : List ℕ} {F : List β} {r : List ℕ} (h : DomainOf c nx ny)
    (hF : F.length = nx * ny * rest.prod) (hr : InShape rest r) :
    (inputLayer c nx ny rest F r).length = c.inX * c.inY := by
  unfold inputLayer
  rw [window_length _ _ _ _ (domain_region h) (layer_length _ _ _ _ (by simp [hF, Nat.mul_assoc]) hr)]
  simp

/-- The data read for a request. -/
theorem input_ok {v : Input β} {c : SliceCache} {restNames : List String} {nx ny : ℕ} {rest : List ℕ} {F : List β}
    (hv : Holds v c restNames nx ny rest F) (hdom : DomainOf c nx ny) (hn : (c.xDim :: c.yDim :: restNames).Nodup)
    (h64 : ∀ n ∈ nx :: ny :: rest, n < two64) {sb : SB.Builder} {osz : List ℕ} {unl : List Bool} {ox oy : String}
    (hno : (ox :: oy :: restNames).Nodup)
    (hsb : SB.Shape (ox :: oy :: restNames).length osz unl (SB.fillDimPos 0 (ox :: oy :: restNames) []) sb)
    {x0 y0 w h : ℕ} {t z : List ℕ} (hst : sb.start = x0 :: y0 :: t) (hsz : sb.size = w :: h :: z) (hreg : RegionIn rest t z) :
    getInputDataSlice c v sb = .ok ((cells z).flatMap fun r => inputLayer c nx ny rest F (addIdx t r)) := by
  have hlenrest : rest.length = restNames.length := by
    have := hreg.lengths.1
    have h2 := hsb.st
    rw [hst] at h2
    simp at h2
    omega
  have hinit : SB.init v.names v.sizes v.unlim = .ok
      ⟨SB.fillDimPos 0 v.names [], [], v.sizes, v.unlim, v.sizes.map fun _ => 0, v.sizes⟩ := by
    unfold SB.init
    rw [if_neg]
    rw [hv.unlim, hv.names, hv.sizes]
    simp [hlenrest]
  obtain ⟨hs, -, i1, i2⟩ := SB.init_shape hinit
  unfold getInputDataSlice
  rw [hinit, Res.ok_bind]
  have hreg' : RegionIn v.sizes (domainStart c ++ t) ([c.inX, c.inY] ++ z) := by
    rw [hv.sizes]
    exact RegionIn_append (a := [nx, ny]) (domain_region hdom) hreg
  have hxy : c.xDim ≠ c.yDim := fun e => by simp [e] at hn
  have hds : ∃ a b, domainStart c = [a, b] := by
    unfold domainStart
    cases c.origin with
    | none => exact ⟨0, 0, rfl⟩
    | some o => exact ⟨o.1, o.2, rfl⟩
  have hfill : SB.fillDimPos 0 (ox :: oy :: restNames) [] = (ox :: oy :: restNames).zipIdx := by
    simpa using SB.fill_eq _ 0 [] hno (by simp)
  obtain ⟨r, e, r1, r2⟩ := inputDims c v.names v.sizes v.unlim sb (by rw [hv.names]; exact hn) (domainStart c ++ t)
    ([c.inX, c.inY] ++ z) (by rw [hv.sizes, hv.names]; simp [hlenrest]) hreg' (by rw [hv.sizes]; exact h64)
    (fun i dn rsb hi => by
      rw [hv.names] at hi
      match i, hi with
      | 0, hi =>
        obtain rfl : c.xDim = dn := by simpa using hi
        unfold inputDim
        cases ho : c.origin with
        | none =>
          right
          have hd := hdom
          simp only [DomainOf, ho] at hd
          simp [domainStart, ho, hv.sizes, hd.1]
        | some o => left; exact ⟨o.1, c.inX, by simp [domainStart, ho], by simp, by simp⟩
      | 1, hi =>
        obtain rfl : c.yDim = dn := by simpa using hi
        unfold inputDim
        cases ho : c.origin with
        | none =>
          right
          have hd := hdom
          simp only [DomainOf, ho] at hd
          simp [domainStart, ho, hv.sizes, hd.2]
        | some o => left; exact ⟨o.2, c.inY, by simp [domainStart, ho], by simp, by simp [hxy.symm]⟩
      | i + 2, hi =>
        left
        have hmap : SB.mapGet (SB.fillDimPos 0 (ox :: oy :: restNames) []) dn = some (i + 2) := by
          rw [hfill]; simpa using SB.mapGet_zipIdx _ 0 hno (i + 2) dn (by simpa using hi)
        have hmem : dn ∈ restNames := List.mem_of_getElem? (i := i) (by simpa using hi)
        have hx : dn ≠ c.xDim := by rintro rfl; simp at hn; exact hn.1.2 hmem
        have hy : dn ≠ c.yDim := by rintro rfl; simp at hn; exact hn.2.1 hmem
        have hilt : i < restNames.length := by
          have := (List.getElem?_eq_some_iff.1 hi).1
          simpa using this
        have lt : i < t.length := by have := hreg.lengths.1; omega
        have lz : i < z.length := by have := hreg.lengths.2; omega
        obtain ⟨a, b, hab⟩ := hds
        refine ⟨t[i], z[i], by simp [hab, lt], by simp [lz], ?_⟩
        have hg := getStartAndSize_ok hsb hmap (st := t[i]) (sz := z[i]) (by simp [hst, lt]) (by simp [hsz, lz])
        unfold inputDim handOn
        rw [hg, Res.ok_bind]
        cases c.origin with
        | none => simp [hx, hy]
        | some o => simp [hx, hy])
    v.names.length _ hs (le_refl _) (by intro i hi; omega) (by
      intro i _ hi
      have : i < v.sizes.length := by rw [hs.ls]; exact hi
      rw [i1, i2]
      simp [this])
  rw [Nat.sub_self, List.drop_zero] at e
  rw [e, Res.ok_bind, r1, r2, hv.read _ _ (by rw [← hv.sizes]; exact hreg')]
  have hF : F.length = ([nx, ny] ++ rest).prod := by simp [hv.data, Nat.mul_assoc]
  have := slice_layers [nx, ny] (domainStart c) [c.inX, c.inY] rest t z (fun r => layer [nx, ny] rest r F) (by simp)
    (fun r hr => layer_length _ _ _ _ hF hr) (domain_region hdom) hreg (by simpa using h64)
  rw [← layers_eq _ _ _ hF] at this
  exact this

/-- The slice of the interpolated data. -/
theorem output_ok {c : SliceCache} {restNames : List String} {rest : List ℕ} {G : List ℕ → List β}
    (hn : (c.xDim :: c.yDim :: restNames).Nodup) {sb : SB.Builder} {unl : List Bool}
    (hsb : SB.Shape (c.xDim :: c.yDim :: restNames).length (c.outX :: c.outY :: rest) unl
      (SB.fillDimPos 0 (c.xDim :: c.yDim :: restNames) []) sb)
    (hG : ∀ r, InShape rest r → (G r).length = c.outX * c.outY) (h64 : ∀ n ∈ c.outX :: c.outY :: rest, n < two64)
    {x0 y0 w h : ℕ} {t z : List ℕ} (hst : sb.start = x0 :: y0 :: t) (hsz : sb.size = w :: h :: z)
    (hreg : RegionIn (c.outX :: c.outY :: rest) sb.start sb.size) :
    getOutputDataSlice c (c.xDim :: c.yDim :: restNames) sb ((cells z).flatMap fun r => G (addIdx t r)) =
      Slice.slice ((cells rest).flatMap G) (c.outX :: c.outY :: rest) sb.start sb.size := by
  rw [hst, hsz] at hreg
  have hr2 : RegionIn rest t z := hreg.2.2
  have hr1 : RegionIn [c.outX, c.outY] [x0, y0] [w, h] := ⟨hreg.1, hreg.2.1, trivial⟩
  have hz64 : ∀ n ∈ z, n < two64 := by
    have : ∀ {d s z : List ℕ}, RegionIn d s z → (∀ n ∈ d, n < two64) → ∀ n ∈ z, n < two64 := by
      intro d
      induction d with
      | nil => intro s z h _; match s, z, h with | [], [], _ => simp
      | cons a d ih =>
        intro s z h hd
        match s, z, h with
        | s :: ss, w :: ws, h =>
          intro n hn
          rcases List.mem_cons.1 hn with rfl | hn
          · have := hd a (by simp); have := h.1; omega
          · exact ih h.2 (fun n hn => hd n (by simp [hn])) n hn
    exact this hr2 fun n hn => h64 n (by simp [hn])
  have hd : (List.range (c.xDim :: c.yDim :: restNames).length).map (fun i =>
      outputDim c ((c.xDim :: c.yDim :: restNames).getD i "") (sb.start.getD i 0) (sb.size.getD i 0) (sb.maxSize.getD i 0)) =
      (x0, c.outX) :: (y0, c.outY) :: z.map fun n => (0, n) := by
    have hl : restNames.length = z.length := by
      have h2 := hsb.sz
      rw [hsz] at h2
      simp at h2
      omega
    rw [hst, hsz, hsb.mx]
    refine List.ext_getElem? fun i => ?_
    match i with
    | 0 => simp [outputDim]
    | 1 => simp [outputDim]
    | i + 2 =>
      rcases Nat.lt_or_ge i z.length with hi | hi
      · have hmem : restNames[i]'(by omega) ∈ restNames := List.getElem_mem _
        have hx : restNames[i]'(by omega) ≠ c.xDim := by intro e; simp at hn; exact hn.1.2 (e ▸ hmem)
        have hy : restNames[i]'(by omega) ≠ c.yDim := by intro e; simp at hn; exact hn.2.1 (e ▸ hmem)
        have hi' : i < restNames.length := by omega
        simp [hi, hi', outputDim, hx, hy]
      · rw [List.getElem?_eq_none (by simp; omega), List.getElem?_eq_none (by simp; omega)]
  unfold getOutputDataSlice
  dsimp only
  rw [hd]
  have hzz : RegionIn z (z.map fun _ => 0) z := by
    clear hd hz64 hreg hr2 hsz
    induction z with
    | nil => trivial
    | cons a z ih => exact ⟨by simp, ih⟩
  have hadd : ∀ r, InShape z r → addIdx (z.map fun _ => 0) r = r := by
    clear hd hz64 hreg hr2 hsz hzz
    intro r
    induction z generalizing r with
    | nil =>
      intro h
      cases r with
      | nil => rfl
      | cons _ _ => exact h.elim
    | cons a z ih =>
      intro h
      cases r with
      | nil => exact h.elim
      | cons x r =>
        have := ih r h.2
        simp only [addIdx, List.map_cons, List.zipWith_cons_cons, Nat.zero_add] at this ⊢
        rw [this]
  have e1 := slice_layers [c.outX, c.outY] [x0, y0] [w, h] z (z.map fun _ => 0) z (fun r => G (addIdx t r)) (by simp)
    (fun r hr => by rw [hG _ (hr2.shift hr)]; simp) hr1 hzz (by
      intro n hn
      simp at hn
      rcases hn with rfl | rfl | hn
      · exact h64 _ (by simp)
      · exact h64 _ (by simp)
      · exact hz64 n hn)
  have e2 := slice_layers [c.outX, c.outY] [x0, y0] [w, h] rest t z G (by simp) (fun r hr => by rw [hG _ hr]; simp) hr1 hr2
    (by simpa using h64)
  rw [← List.flatMap_def] at e1 e2
  have e3 : ((x0, c.outX) :: (y0, c.outY) :: z.map fun n => (0, n)).map (·.2) = [c.outX, c.outY] ++ z := by simp
  have e4 : ((x0, c.outX) :: (y0, c.outY) :: z.map fun n => (0, n)).map (·.1) = [x0, y0] ++ z.map fun _ => 0 := by
    simp [Function.comp_def]
  rw [e3, e4, hsz, hst]
  refine e1.trans (Eq.trans ?_ e2.symm)
  congr 1
  refine List.flatMap_congr fun r hr => ?_
  rw [hadd r (mem_cells.1 hr)]

theorem processArray_layerWise (ps : List (List V → Res (List V))) (N nx ny : ℕ) (g : List V → List V) (h0 : 0 < nx * ny)
    (hg : ∀ l, l.length = nx * ny → ps.foldlM (fun l p => p l) l = .ok (g l) ∧ (g l).length = nx * ny) :
    LayerWise N (nx * ny) (nx * ny) (fun a => processArray ps a nx ny) g := by
  refine ⟨fun l hl => (hg l hl).2, fun ls _ hls => ?_⟩
  change processArray ps ls.flatten nx ny = _
  unfold processArray
  by_cases he : ps.isEmpty
  · have : ps = [] := by simpa using he
    subst this
    simp only [List.isEmpty_nil, if_true]
    congr 2
    refine (List.map_id ls).symm.trans (List.map_congr_left fun l hl => ?_)
    have := (hg l (hls l hl)).1
    exact Res.ok.inj this
  · have hlen : ls.flatten.length = ls.length * (nx * ny) := by
      have := length_flatMap_const ls id (nx * ny) hls
      simpa [List.flatMap_def] using this
    rw [if_neg he, if_neg (by omega), hlen, Nat.mul_div_cancel _ h0, if_neg (by simp)]
    have hl : ∀ z < ls.length, ps.foldlM (fun l p => p l) ((ls.flatten.drop (z * (nx * ny))).take (nx * ny)) =
        .ok (g (ls.getD z [])) := by
      intro z hz
      have hlz : (ls.flatten.drop (z * (nx * ny))).take (nx * ny) = ls.getD z [] := by
        refine List.ext_getElem? fun i => ?_
        have hmem : ls[z].length = nx * ny := hls _ (List.getElem_mem _)
        rcases Nat.lt_or_ge i (nx * ny) with hi | hi
        · rw [List.getElem?_take_of_lt hi, List.getElem?_drop]
          have := getElem?_flatMap_const ls id (nx * ny) hls z i hi
          rw [List.flatMap_def, List.map_id, Nat.mul_comm] at this
          rw [this]
          simp [hz]
        · rw [List.getElem?_eq_none (by rw [List.length_take]; omega), List.getElem?_eq_none]
          simp [hz, hmem, hi]
      rw [hlz]
      have : ls.getD z [] = ls[z] := by simp [hz]
      rw [this]
      exact (hg _ (hls _ (List.getElem_mem _))).1
    rw [mapM_range_ok _ _ _ hl, Res.ok_bind]
    congr 2
    refine List.ext_getElem? fun i => ?_
    rcases Nat.lt_or_ge i ls.length with hi | hi
    · simp [hi]
    · rw [List.getElem?_eq_none (by simpa using hi), List.getElem?_eq_none (by simpa using hi)]

end Fimex.Interp
