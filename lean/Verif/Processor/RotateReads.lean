import Verif.Processor.RotateDataset
import Mathlib.Tactic.FieldSimp

/-!
# C106: what is read after the calls
-/

namespace Fimex.Rotate

open Cdm Vectors Interp
open Cf (Lib)

variable {V CS K D Pr : Type}

/-! ## Specification -/

/-- The components of a vector after a turn; both are undefined if one of them has been. -/
def turnX [Field K] (r : Rotation K) (u v : Option K) : Option K := do let a ← u; let b ← v; some (r.c * a - r.s * b)

/-- See `turnX`. -/
def turnY [Field K] (r : Rotation K) (u v : Option K) : Option K := do let a ← u; let b ← v; some (r.s * a + r.c * b)

/-- Matrices have a value for each point of the grid, and grids are not empty. -/
def Fits [Zero K] (W : World V K D) : Prop :=
  ∀ id b m, makeCached W id b = .ok m → 0 < m.sizeX * m.sizeY ∧ m.matrix.length = m.sizeX * m.sizeY

/-- The quantity behind a packed value. -/
def physical [Field K] (W : World V K D) (v : String) (d : D) : Option K := (W.num v d).map fun a => W.scale v * a + W.offset v

section Reads

variable [Field K] [LinearOrder K]

/-- **C106.** Both components are those of the turned vectors of the reader: layer by layer with the rotation of the grid point. -/
theorem C106_vectors_read (W : World V K D) (s : State V CS K) (x y id : String) (m : Cached K) (pos oz : ℕ) (dx dy : List D)
    (hx : s.vecX x = some (y, id)) (hy : s.vecY y = some (x, id)) (hyx : s.vecX y = none) (hdx : s.dir x = none) (hdy : s.dir y = none)
    (hm : s.cache id = some m) (h0 : 0 < m.sizeX * m.sizeY) (hl : m.matrix.length = m.sizeX * m.sizeY)
    (rx : W.raw x pos = .ok dx) (px : W.pre x pos = .ok dx) (ry : W.raw y pos = .ok dy) (py : W.pre y pos = .ok dy)
    (lx : dx.length = m.sizeX * m.sizeY * oz) (ly : dy.length = m.sizeX * m.sizeY * oz) :
    ∃ dx' dy', read W s x pos = .ok dx' ∧ read W s y pos = .ok dy' ∧ dx'.length = dx.length ∧ dy'.length = dy.length ∧
      ∀ z i r a b, z < oz → i < m.sizeX * m.sizeY → m.matrix[i]? = some r →
        dx[z * (m.sizeX * m.sizeY) + i]? = some a → dy[z * (m.sizeX * m.sizeY) + i]? = some b →
        dx'[z * (m.sizeX * m.sizeY) + i]? = some (W.cell x (turnX r (W.num x a) (W.num y b))) ∧
        dy'[z * (m.sizeX * m.sizeY) + i]? = some (W.cell y (turnY r (W.num x a) (W.num y b))) := by
  obtain ⟨u, v, e, lu, lv, hc⟩ := C78_vectors_rotated m.matrix m.sizeX m.sizeY oz (dx.map (W.num x)) (dy.map (W.num y)) h0 hl
    (by simpa using lx) (by simpa using ly)
  rw [List.length_map] at e lu lv
  refine ⟨u.map (W.cell x), v.map (W.cell y), ?_, ?_, by simpa using lu, by simpa using lv, ?_⟩
  · simp only [read, readVector, readDirection, px, hx, ry, hdx, hm, deref, Res.ok_bind]
    rw [if_neg (by omega), e]
    rfl
  · simp only [read, readVector, readDirection, py, hyx, hy, rx, hdy, hm, deref, Res.ok_bind]
    rw [if_neg (by omega), e]
    rfl
  · intro z i r a b hz hi hr ha hb
    obtain ⟨h1, h2⟩ := hc z i r _ _ hz hi hr (by rw [List.getElem?_map, ha]; rfl) (by rw [List.getElem?_map, hb]; rfl)
    rw [List.getElem?_map, List.getElem?_map, h1, h2]
    exact ⟨rfl, rfl⟩

/-- **C106.** After any calls, a call that succeeds makes the processor give the turned vectors, if the components are neither (de)accumulated nor
turned in another way: by the matrix of the system of the components for the wanted direction if the system is used for the first time. -/
theorem C106_rotated_partial (L : Lib V Pr) (W : World V K D) (c : CDM Vec V CS) (cs : List Call) (b : Bool) (xs ys sx sy : List String)
    (s' : State V CS K) (hW : Fits W) (hn : (xs ++ ys).Nodup)
    (h : rotateVectors W b xs ys sx sy (calls L W { cdm := c } cs) = (s', .ok ())) (k : ℕ) (x y : String)
    (hx : xs[k]? = some x) (hy : ys[k]? = some y) (hyx : (calls L W { cdm := c } cs).vecX y = none)
    (hdx : (calls L W { cdm := c } cs).dir x = none) (hdy : (calls L W { cdm := c } cs).dir y = none) :
    ∃ id m, W.system x = some id ∧ W.system y = some id ∧ s'.cache id = some m ∧
      ((calls L W { cdm := c } cs).cache id = none → makeCached W id b = .ok m) ∧
      ∀ pos oz dx dy, W.raw x pos = .ok dx → W.pre x pos = .ok dx → W.raw y pos = .ok dy → W.pre y pos = .ok dy →
        dx.length = m.sizeX * m.sizeY * oz → dy.length = m.sizeX * m.sizeY * oz →
        ∃ dx' dy', read W s' x pos = .ok dx' ∧ read W s' y pos = .ok dy' ∧ dx'.length = dx.length ∧ dy'.length = dy.length ∧
          ∀ z i r d e, z < oz → i < m.sizeX * m.sizeY → m.matrix[i]? = some r →
            dx[z * (m.sizeX * m.sizeY) + i]? = some d → dy[z * (m.sizeX * m.sizeY) + i]? = some e →
            dx'[z * (m.sizeX * m.sizeY) + i]? = some (W.cell x (turnX r (W.num x d) (W.num y e))) ∧
            dy'[z * (m.sizeX * m.sizeY) + i]? = some (W.cell y (turnY r (W.num x d) (W.num y e))) := by
  have hs : Sound W (calls L W { cdm := c } cs) := calls_sound cs
    ⟨fun _ _ _ h => by simp at h, fun _ _ _ h => by simp at h, fun _ _ h => by simp at h, fun _ _ h => by simp at h⟩
  generalize calls L W { cdm := c } cs = s at *
  have hs' := rotateVectors_sound (b := b) xs ys sx sy hs
  have hd := (rotateVectors_mono (W := W) (b := b) xs ys sx sy s).1
  rw [h] at hs' hd
  dsimp only at hs' hd
  unfold rotateVectors at h
  split_ifs at h with h1 h2 h3
  · cases (Prod.mk.inj h).2
  · subst h2; simp at hx
  · cases (Prod.mk.inj h).2
  · obtain ⟨g1, g2, g3, -, g5⟩ := rotatePairs_ok xs ys sx sy s s' (by simpa using h1) hn h
    obtain ⟨⟨id, m, i1, i2, i3, i4, i5⟩, -⟩ := g5 k x y hx hy
    have hyxs : y ∉ xs := fun hh => List.disjoint_of_nodup_append hn hh (List.mem_of_getElem? hy)
    obtain ⟨b', hb'⟩ := hs'.cache id m i5
    refine ⟨id, m, i1, i2, i5, fun hnone => ?_, fun pos oz dx dy rx px ry py lx ly => ?_⟩
    · rcases g3 id m i5 with hh | ⟨-, hh⟩
      · rw [hnone] at hh; cases hh
      · exact hh
    · exact C106_vectors_read W s' x y id m pos oz dx dy i3 i4 (by rw [g1 y hyxs, hyx]) (by rw [hd, hdx]) (by rw [hd, hdy]) i5
        (hW id b' m hb').1 (hW id b' m hb').2 rx px ry py lx ly

omit [LinearOrder K] in
/-- **C106.** The quantities behind the values are turned as well, provided that both components are packed with the same factor and
without offset.  The full property (any packing) is violated: `C106_offset_ignored`. -/
theorem C106_quantities_partial (W : World V K D) (x y : String) (r : Rotation K) (d e : D) (hc : ∀ o, W.num x (W.cell x o) = o)
    (hc' : ∀ o, W.num y (W.cell y o) = o) (hs : W.scale y = W.scale x) (hx : W.offset x = 0) (hy : W.offset y = 0) :
    physical W x (W.cell x (turnX r (W.num x d) (W.num y e))) = turnX r (physical W x d) (physical W y e) ∧
    physical W y (W.cell y (turnY r (W.num x d) (W.num y e))) = turnY r (physical W x d) (physical W y e) := by
  simp only [physical, hc, hc', hs, hx, hy, turnX, turnY]
  cases W.num x d <;> cases W.num y e <;> simp
  constructor <;> ring

/-- **C106.** Directions are turned by the angle of the grid point as quantities: the packing is undone before and done again afterwards. -/
theorem C106_directions_read (W : World V K D) (s : State V CS K) (v id : String) (m : Cached K) (pos oz : ℕ) (dv : List D)
    (hd : s.dir v = some id) (hx : s.vecX v = none) (hy : s.vecY v = none) (hm : s.cache id = some m)
    (h0 : 0 < m.sizeX * m.sizeY) (hl : m.matrix.length = m.sizeX * m.sizeY) (pv : W.pre v pos = .ok dv)
    (lv : dv.length = m.sizeX * m.sizeY * oz) (hs : W.scale v ≠ 0) :
    ∃ dv', read W s v pos = .ok dv' ∧ dv'.length = dv.length ∧
      ∀ z i r d, z < oz → i < m.sizeX * m.sizeY → m.matrix[i]? = some r → dv[z * (m.sizeX * m.sizeY) + i]? = some d →
        ∃ o, dv'[z * (m.sizeX * m.sizeY) + i]? = some (W.cell v o) ∧
          (o.map fun a => W.scale v * a + W.offset v) = (physical W v d).map fun a => turn a r.deg := by
  obtain ⟨u, e, lu, hc⟩ := C78_directions_turned m.matrix m.sizeX m.sizeY oz ((dv.map (W.num v)).map (scaled W v)) h0 hl (by simpa using lv)
  rw [List.length_map, List.length_map] at e lu
  refine ⟨(u.map (unscaled W v)).map (W.cell v), ?_, by simpa using lu, ?_⟩
  · simp only [read, readVector, readDirection, pv, hx, hy, hd, hm, deref, Res.ok_bind]
    rw [e]
    rfl
  · intro z i r d hz hi hr hd
    have h1 := hc z i r _ hz hi hr (by rw [List.getElem?_map, List.getElem?_map, hd]; rfl)
    refine ⟨_, by rw [List.getElem?_map, List.getElem?_map, h1]; rfl, ?_⟩
    simp only [unscaled, scaled, physical]
    cases W.num v d with
    | none => rfl
    | some a =>
      simp only [Option.map_some, Option.some.injEq]
      field_simp
      ring

/-- **C106.** Variables that are no component and no direction are given as they are, and components of different size are refused. -/
theorem C106_others_read (W : World V K D) (s : State V CS K) (v : String) (pos : ℕ) :
    (s.vecX v = none → s.vecY v = none → s.dir v = none → read W s v pos = W.pre v pos) ∧
    (∀ y id dv dy, s.vecX v = some (y, id) → W.pre v pos = .ok dv → W.raw y pos = .ok dy → dv.length ≠ dy.length → read W s v pos = .throws) ∧
    (∀ x id dv dx, s.vecX v = none → s.vecY v = some (x, id) → W.pre v pos = .ok dv → W.raw x pos = .ok dx → dv.length ≠ dx.length →
      read W s v pos = .throws) := by
  refine ⟨fun h1 h2 h3 => ?_, fun y id dv dy h1 h2 h3 h4 => ?_, fun y id dv dy h0 h1 h2 h3 h4 => ?_⟩
  · simp only [read, readVector, readDirection, h1, h2, h3, Res.ok_bind]
    cases W.pre v pos <;> rfl
  · simp only [read, readVector, h1, h2, h3, Res.ok_bind]
    rw [if_pos h4]; rfl
  · simp only [read, readVector, h0, h1, h2, h3, Res.ok_bind]
    rw [if_pos (Ne.symm h4)]; rfl

end Reads

/-! ## All vectors -/

/-- The two directions of a vector are different. -/
def Opposed (v w : Var Vec) : Prop := v.payload.direction ≠ w.payload.direction

theorem enhance_opposed {L : Lib V Pr} {c : CDM Vec V CS} (hg : GoodNames c)
    (hm : ∀ v ∈ c.vars, v.payload.counterpart ≠ "" → ∃ w ∈ c.vars, Mutual v w ∧ Opposed v w) :
    ∀ v ∈ (enhance L c).vars, v.payload.counterpart ≠ "" → ∃ w ∈ (enhance L c).vars, Mutual v w ∧ Opposed v w := by
  have ht : ∀ t ∈ vectorTable, t.2.2.1 ≠ t.2.2.2 := by
    intro t h
    rcases (C98_table t h).2.2 with ⟨e, -⟩ | ⟨e, -⟩ <;> rw [e] <;> simp
  have key : ∀ x y : Var Vec, NewPair L c x y → Opposed x y := by
    rintro x y ⟨-, ⟨-, t, h, -, -, -, e1, e2⟩ | ⟨-, -, e1, e2⟩⟩
    · unfold Opposed; rw [e1, e2]; exact ht t h
    · unfold Opposed; rw [e1, e2]; simp
  intro v hv hc
  rcases C98_new_vectors c hg v hv with h | ⟨-, w, hw, -, h⟩
  · obtain ⟨w, hw, hmu, ho⟩ := hm v h hc
    exact ⟨w, (C98_kept c hg).2.2.2 w hw fun e => hg.2 v h (hmu.2.1.symm.trans e), hmu, ho⟩
  · rcases h with h | h
    · exact ⟨w, hw, h.1, key _ _ h⟩
    · exact ⟨w, hw, ⟨h.1.2.1, h.1.1, Ne.symm h.1.2.2⟩, Ne.symm (key _ _ h)⟩

section All

variable [Zero K]

/-- The standard name after a turn: the word for the turn before the standard name there has been, or before the name of the variable. -/
def NewName (L : Lib V Pr) (W : World V K D) (c c' : CDM Vec V CS) (b : Bool) (n : String) : Prop :=
  getAttribute c' n "standard_name" = .ok ⟨"standard_name", W.value ((if b then "LATLON_ROTATED_" else "GRID_ROTATED_") ++
    (match getAttribute c n "standard_name" with | .ok a => L.text a.value | _ => n))⟩

theorem nodup_of_inj {l : List (Var Vec)} (hl : l.Nodup) {f : Var Vec → String} (h : ∀ v ∈ l, ∀ w ∈ l, f v = f w → v = w) : (l.map f).Nodup :=
  (List.nodup_map_iff_inj_on hl).2 h

/-- **C106.** If turning all vectors succeeds, all vectors of the dataset along the axes of the grid (or, back, towards longitude and latitude)
are turned, those found by their names included, and nothing else is changed. -/
theorem C106_all (L : Lib V Pr) (W : World V K D) (b : Bool) (s s' : State V CS K) (hg : GoodNames s.cdm)
    (hm : ∀ v ∈ s.cdm.vars, v.payload.counterpart ≠ "" → ∃ w ∈ s.cdm.vars, Mutual v w ∧ Opposed v w)
    (h : rotateAll L W b s = (s', .ok ())) :
    OnlyVectors (enhance L s.cdm) s'.cdm (fun n => ∃ v ∈ (enhance L s.cdm).vars, v.payload.counterpart ≠ "" ∧
      v.payload.direction = (if b then .x else .lon) ∧ (n = v.name ∨ n = v.payload.counterpart)) ∧
    ∀ v ∈ (enhance L s.cdm).vars, v.payload.counterpart ≠ "" → v.payload.direction = (if b then .x else .lon) →
      IsComponent s'.cdm v.name v.payload.counterpart (if b then .lon else .x) ∧
      IsComponent s'.cdm v.payload.counterpart v.name (if b then .lat else .y) ∧
      NewName L W (enhance L s.cdm) s'.cdm b v.name ∧ NewName L W (enhance L s.cdm) s'.cdm b v.payload.counterpart ∧
      ∃ id m, W.system v.name = some id ∧ W.system v.payload.counterpart = some id ∧ s'.vecX v.name = some (v.payload.counterpart, id) ∧
        s'.vecY v.payload.counterpart = some (v.name, id) ∧ s'.cache id = some m := by
  have hmu := enhance_opposed (L := L) hg hm
  have hgn : GoodNames (enhance L s.cdm) := by
    have e : (enhance L s.cdm).vars.map (fun v : Var Vec => v.name) = s.cdm.vars.map fun v : Var Vec => v.name := by
      have := congrArg (List.map Prod.fst) (C98_kept (L := L) s.cdm hg).2.2.1
      simpa [List.map_map, Function.comp_def] using this
    refine ⟨e ▸ hg.1, fun v hv hn => ?_⟩
    have : v.name ∈ s.cdm.vars.map fun v : Var Vec => v.name := e ▸ List.mem_map_of_mem hv
    obtain ⟨w, hw, hwn⟩ := List.mem_map.1 this
    exact hg.2 w hw (hwn.trans hn)
  unfold rotateAll at h
  dsimp only at h
  generalize hc : enhance L s.cdm = c at *
  have inj : ∀ v ∈ c.vars, ∀ w ∈ c.vars, v.name = w.name → v = w := fun v hv w hw e => List.inj_on_of_nodup_map hgn.1 hv hw e
  have hmem : ∀ v, v ∈ candidates c b ↔ v ∈ c.vars ∧ v.payload.counterpart ≠ "" ∧ v.payload.direction = (if b then .x else .lon) := by
    intro v
    simp [candidates, isVector]
  have nd : (candidates c b).Nodup := (List.Nodup.of_map _ hgn.1).filter _
  have hn : ((candidates c b).map (·.name) ++ (candidates c b).map (·.payload.counterpart)).Nodup := by
    refine List.nodup_append.2 ⟨?_, ?_, ?_⟩
    · exact nodup_of_inj nd fun v hv w hw e => inj v ((hmem v).1 hv).1 w ((hmem w).1 hw).1 e
    · refine nodup_of_inj nd fun v hv w hw e => ?_
      obtain ⟨hv1, hv2, -⟩ := (hmem v).1 hv
      obtain ⟨hw1, hw2, -⟩ := (hmem w).1 hw
      obtain ⟨v', m1, n1, -⟩ := hmu v hv1 hv2
      obtain ⟨w', m2, n2, -⟩ := hmu w hw1 hw2
      obtain rfl := inj v' m1 w' m2 (n1.1.symm.trans (e.trans n2.1))
      exact inj v hv1 w hw1 (n1.2.1.symm.trans n2.2.1)
    · intro a ha a' ha' e
      subst e
      obtain ⟨v, hv, rfl⟩ := List.mem_map.1 ha
      obtain ⟨w, hw, e⟩ := List.mem_map.1 ha'
      obtain ⟨hv1, hv2, hv3⟩ := (hmem v).1 hv
      obtain ⟨hw1, hw2, hw3⟩ := (hmem w).1 hw
      obtain ⟨w', m2, n2, o2⟩ := hmu w hw1 hw2
      obtain rfl := inj w' m2 v hv1 (n2.1.symm.trans e)
      exact o2 (hw3.trans hv3.symm)
  obtain ⟨d1, d2⟩ := C106_dataset W b _ _ _ _ _ s' hn h
  constructor
  · refine d1.mono fun n hh => ?_
    rcases hh with hh | hh
    · obtain ⟨v, hv, rfl⟩ := List.mem_map.1 hh
      obtain ⟨v1, v2, v3⟩ := (hmem v).1 hv
      exact ⟨v, v1, v2, v3, .inl rfl⟩
    · obtain ⟨v, hv, rfl⟩ := List.mem_map.1 hh
      obtain ⟨v1, v2, v3⟩ := (hmem v).1 hv
      exact ⟨v, v1, v2, v3, .inr rfl⟩
  · intro v hv hv2 hv3
    obtain ⟨k, hk⟩ := List.mem_iff_getElem?.1 ((hmem v).2 ⟨hv, hv2, hv3⟩)
    obtain ⟨c1, c2, c3, c4⟩ := d2 k v.name v.payload.counterpart (by rw [List.getElem?_map, hk]; rfl) (by rw [List.getElem?_map, hk]; rfl)
    rw [List.getElem?_map, hk] at c3 c4
    refine ⟨c1, c2, c3, c4, ?_⟩
    unfold rotateVectors at h
    split_ifs at h with h1 h2 h3
    · cases (Prod.mk.inj h).2
    · have : candidates c b = [] := List.map_eq_nil_iff.1 h2
      rw [this] at hk; simp at hk
    · cases (Prod.mk.inj h).2
    · obtain ⟨-, -, -, -, g5⟩ := rotatePairs_ok _ _ _ _ _ s' (by simp) hn h
      exact (g5 k v.name v.payload.counterpart (by rw [List.getElem?_map, hk]; rfl) (by rw [List.getElem?_map, hk]; rfl)).1

end All

/-! ## Examples and violations -/

/-- A world for the examples: the variables `u`, `v` and `dd` lie in the system `cs`, whose grid has two points; to latitude and longitude
vectors are turned by 90 degrees in the first one, back they are not turned. -/
def toyWorld : World String ℚ (Option ℚ) where
  systems := ["cs"]
  system n := if n ∈ ["u", "v", "dd"] then some "cs" else if n ∈ ["u2", "v2"] then some "bad" else none
  isDegree _ := false
  xAxis id := if id = "cs" then "x" else "none"
  yAxis _ := "y"
  axis n u := if u = "m" then (if n = "x" then .ok [0, 1000] else if n = "y" then .ok [5] else .throws) else .throws
  fieldMatrix _ _ _ _ _ := .ok [⟨0, 1, 90⟩, ⟨1, 0, 0⟩]
  axisMatrix _ _ _ _ _ := .ok [⟨1, 0, 0⟩, ⟨1, 0, 0⟩]
  raw n _ := if n = "u" then .ok [some 3, some 4] else if n = "v" then .ok [some 7, none] else if n = "dd" then .ok [some 100, some 20] else .throws
  pre n _ := if n = "u" then .ok [some 3, some 4] else if n = "v" then .ok [some 7, none] else if n = "dd" then .ok [some 100, some 20] else .throws
  num _ d := d
  cell _ o := o
  scale n := if n = "dd" then 2 else 1
  offset n := if n = "dd" then 10 else 0
  value := id

def toyState : State String Unit ℚ where
  cdm := windCdm "CF-1.6" [("u", "x_wind"), ("v", "y_wind"), ("dd", "wind_from_direction")]

/-- Its matrices fit. -/
theorem toyWorld_fits : Fits toyWorld := by
  have e : (fields [(0 : ℚ), 1000] [5] 0) = .ok ([0, 1000], [5, 5]) := by decide +kernel
  intro id b m h
  unfold makeCached at h
  by_cases hid : id = "cs"
  · subst hid
    cases b <;> (simp [toyWorld, e] at h; subst h; simp)
  · simp [toyWorld, hid] at h

/-- Vectors and directions that are read after one call each. -/
theorem C106_example :
    let s := calls Cf.toyLib toyWorld toyState [.vectors true ["u"] ["v"] ["a"] [], .directions true ["dd"]]
    (read toyWorld s "u" 0, read toyWorld s "v" 0, read toyWorld s "dd" 0) =
      (.ok [some (-7), none], .ok [some 3, none], .ok [some 55, some 20]) ∧
    pairsOf s.cdm = [("u", "v", .lon), ("v", "u", .lat), ("dd", "", .none)] ∧
    (s.cdm.attrs "u", s.cdm.attrs "v") = (some [⟨"standard_name", "a"⟩], some [⟨"standard_name", "y_wind"⟩]) := by decide +kernel

/-- All vectors. -/
theorem C106_all_example :
    let p := rotateAll Cf.toyLib toyWorld true toyState
    p.2 = .ok () ∧ pairsOf p.1.cdm = [("u", "v", .lon), ("v", "u", .lat), ("dd", "", .none)] ∧
    (p.1.cdm.attrs "u", p.1.cdm.attrs "v") =
      (some [⟨"standard_name", "LATLON_ROTATED_x_wind"⟩], some [⟨"standard_name", "LATLON_ROTATED_y_wind"⟩]) := by decide +kernel

/-- Matrices are kept by system and not by direction: after a call to latitude and longitude, a call in the other direction turns with the
matrix of the first one, although the matrix of the second one would turn nothing. -/
theorem C106_direction_ignored :
    let s := calls Cf.toyLib toyWorld toyState [.vectors true ["u"] ["v"] [] [], .vectors false ["u"] ["v"] [] []]
    let t := calls Cf.toyLib toyWorld toyState [.vectors false ["u"] ["v"] [] []]
    pairsOf s.cdm = pairsOf t.cdm ∧ read toyWorld s "u" 0 = .ok [some (-7), none] ∧ read toyWorld t "u" 0 = .ok [some 3, none] := by decide +kernel

/-- A direction is registered before its matrix is made: if that fails, reading it afterwards uses a null pointer. -/
theorem C106_null_matrix :
    let W : World String ℚ (Option ℚ) := { toyWorld with xAxis := fun _ => "none" }
    let p := rotateDirections W true ["dd"] toyState
    p.2 = .throws ∧ read W p.1 "dd" 0 = .ub := by decide +kernel

/-- A vector is registered only afterwards, but its components say that they have been turned. -/
theorem C106_failed_call_marks :
    let W : World String ℚ (Option ℚ) := { toyWorld with xAxis := fun _ => "none" }
    let p := rotateVectors W true ["u"] ["v"] [] [] toyState
    p.2 = .throws ∧ read W p.1 "u" 0 = .ok [some 3, some 4] ∧ pairsOf p.1.cdm = [("u", "v", .lon), ("v", "u", .lat), ("dd", "", .none)] := by
  decide +kernel

/-- Vectors are turned as packed numbers: with an offset the quantities are wrong. -/
theorem C106_offset_ignored :
    let W : World String ℚ (Option ℚ) := { toyWorld with offset := fun _ => 1 }
    let r : Rotation ℚ := ⟨0, 1, 90⟩
    physical W "u" (W.cell "u" (turnX r (some 3) (some 7))) = some (-6) ∧ turnX r (physical W "u" (some 3)) (physical W "v" (some 7)) = some (-8) := by
  decide +kernel

/-- The other component is taken from the reader as it is, even if it is accumulated: the components that are read do not belong together. -/
theorem C106_counterpart_not_accumulated :
    let W : World String ℚ (Option ℚ) := { toyWorld with pre := fun n _ => if n = "u" then .ok [some 30, some 40] else .ok [some 70, some 80] }
    let s := calls Cf.toyLib W toyState [.vectors true ["u"] ["v"] [] []]
    read W s "u" 0 = .ok [some (-7), none] ∧ read W s "v" 0 = .ok [some 3, some 80] := by decide +kernel

end Fimex.Rotate
