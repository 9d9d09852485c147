import Verif.Vertical.HypsometricLemmas

/-!
# Altitude by integration of the pressure (C84)
-/

namespace Fimex.Hypsometric

open Fimex.SB Fimex.ArrayLoop Fimex.Shapes Fimex.Levels Fimex.Vertical Fimex.Converters

/-! ## Specification -/

/-- The variables with their dimensions and values, the humidity if there is one, and the pressure. -/
structure Inputs where
  sap : Converters.Field (Option ℝ)
  sgp : Converters.Field (Option ℝ)
  t : Converters.Field (Option ℝ)
  q : Option (Converters.Field (Option ℝ))
  p : Converters.Field (Option ℝ)

/-- The dataset has these variables, and `z` is the dimension of the vertical axis, with `nz` levels. The shape of the
result is `org`. -/
structure Given (c : Cdm) (rd : Reader (Option ℝ)) (axis : String) (v : Vars) (get : Source (Option ℝ)) (z : String)
    (nz : ℕ) (org : List String) (x : Inputs) : Prop where
  axis : ∃ rest, c.shapeOf axis = some (z :: rest)
  levels : c.dimLength z = some nz
  large : nz < two64
  nodup : org.Nodup
  inOrg : z ∈ org
  sap : Has c rd v.sap "hPa" x.sap.names x.sap.val
  sgp : Has c rd v.sgp "m^2/s^2" x.sgp.names x.sgp.val
  t : Has c rd v.airT "K" x.t.names x.t.val
  dry : x.q = none → v.sHum = ""
  humid : ∀ q, x.q = some q → v.sHum ≠ "" ∧ Has c rd v.sHum "1" q.names q.val
  p : Delivers c x.p.names x.p.val get
  known : ∀ d ∈ x.p.names, 0 < lengthIn c d ∧ lengthIn c d < two64
  inP : z ∈ x.p.names
  surface : z ∉ x.sap.names ∧ z ∉ x.sgp.names
  covers : Covers c org x.sap.names ∧ Covers c org x.sgp.names ∧ Covers c org x.t.names ∧ Covers c org x.p.names ∧
    ∀ q, x.q = some q → Covers c org q.names

/-- The temperature used for a layer: the one of the air, or of dry air of the same density; undefined if temperature or humidity are. -/
noncomputable def Inputs.temp (x : Inputs) (σ : String → ℕ) : Option ℝ :=
  match x.q with
  | none => x.t.val σ
  | some q => (q.val σ).bind fun h => (x.t.val σ).map fun t => (1 + 0.60771704180064308681 * h) * t

theorem virtual_eq (q t : Option ℝ) : virtual q t = q.bind fun h => t.map fun t => (1 + 0.60771704180064308681 * h) * t := by
  cases q <;> cases t <;> rfl

/-- The altitude at an index: from the surface up to its level, layer by layer. `high`: the pressure is highest at the
start of the axis. -/
noncomputable def altitudeAt (x : Inputs) (z : String) (nz : ℕ) (high : Bool) (σ : String → ℕ) : Option ℝ :=
  climbed ((x.sgp.val σ).map fun g => g / 9.80665) (x.sap.val σ)
    (fun i => x.p.val (Function.update σ z (level high nz i))) (fun i => x.temp (Function.update σ z (level high nz i)))
    (layers high nz (σ z))

/-- The whole column of pressures in the requested columns. -/
def columnRegion (c : Cdm) (org : List String) (r : String → ℕ × ℕ) (z : String) (nz : ℕ) : String → ℕ × ℕ :=
  Function.update (regionOf c org r) z (0, nz)

/-! ## Reading the pressure -/

theorem setAll_ok {names : List String} {reg : String → ℕ × ℕ} {len : String → ℕ} {b : Builder} (h : Asks names reg b)
    (hw : Within names len b) (hn : names.Nodup) {d : String} (hd : d ∈ names) (hl : len d < two64) :
    ∃ b', changed (setAll b d) = .ok b' ∧ Asks names (Function.update reg d (0, len d)) b' := by
  obtain ⟨i, h1, h2⟩ := mapGet_mem hn hd
  have hpos : getDimPos b d = .ok i := by unfold getDimPos; rw [h.dimPos, h1]
  have hm : at' b.maxSize i = .ok (len d) := by simp [at', hw.maxSize, h2]
  have hwa : wadd 0 (len d) = len d := by rw [wadd_eq (by omega)]; omega
  rcases set_ok h hw hn hd 0 (len d) with ⟨k, -⟩ | ⟨-, b', e, k, -⟩
  · omega
  · refine ⟨b', ?_, k⟩
    unfold setAll
    rw [hpos]
    dsimp only
    rw [hm]
    dsimp only
    rw [e]
    rfl

/-- What is done before the direction is known. -/
theorem altitude_start {c : Cdm} {rd : Reader (Option ℝ)} {axis : String} {v : Vars} {get : Source (Option ℝ)} {z : String}
    {nz : ℕ} {org : List String} {x : Inputs} (h : Given c rd axis v get z nz org x) {r : String → ℕ × ℕ} {req : Builder}
    (hs : Asks org r req) (hf : Fits c org r) (junk : ℕ → Option ℝ) :
    ∃ l, Values (fun d => (columnRegion c org r z nz d).2) x.p.names
        (fun σ => x.p.val fun d => (columnRegion c org r z nz d).1 + σ d) l ∧
      altitude c rd (some axis) v (.ok x.p.names) get junk req = (do
        let dir ← direction (full (fun d => (columnRegion c org r z nz d).2) x.p.names) l
          ((nz - 1) * stride (fun d => (columnRegion c org r z nz d).2) z x.p.names)
        match dir with
        | none => .ok none
        | some high => do
          let pl := planOf high nz (r z).1 (r z).2
          let sb ← changed (setStartAndSize req z pl.start pl.size)
          columns c rd v z ⟨full (fun d => (columnRegion c org r z nz d).2) x.p.names, some l⟩ pl (r z).2 junk sb req) := by
  obtain ⟨rest, hax⟩ := h.axis
  have hlz : lengthIn c z = nz := by simp [lengthIn, h.levels]
  have hnz : 0 < nz := by have := (h.known z h.inP).1; omega
  obtain ⟨b0, e0, h1, h2⟩ := createSliceBuilder_ok c h.p.nodup
  obtain ⟨b1, e1, h3, h4⟩ := (copy_ok h.p.nodup h.nodup hs h1 h2).1 (fun d hd hdo => by
    have hle : _ ≤ lengthIn c d := (hf d hdo).2
    have := (h.known d hd).2
    rw [wadd_eq (by omega)]
    exact hle)
  have h3' : Asks x.p.names (regionOf c org r) b1 := h3
  have hz' : (c.dimLength z).getD 1 = nz := hlz
  obtain ⟨b2, e2, h5⟩ := setAll_ok h3' h4 h.p.nodup h.inP (by rw [hz']; exact h.large)
  rw [hz'] at h5
  have h5 : Asks x.p.names (columnRegion c org r z nz) b2 := h5
  have hfit : Fits c x.p.names (columnRegion c org r z nz) := by
    intro d hd
    unfold columnRegion
    by_cases hdz : d = z
    · subst hdz
      rw [Function.update_self]
      exact ⟨hnz, by rw [hlz]; simp⟩
    · rw [Function.update_of_ne hdz]
      unfold regionOf
      split_ifs with hdo
      · exact hf d hdo
      · simp [(h.known d hd).1]
  obtain ⟨l, el, hl⟩ := readConverter_ok h.p h.known h.p.nodup h5 hfit
  have hreg : ∀ d ∈ x.p.names, regionOf c x.p.names (columnRegion c org r z nz) d = columnRegion c org r z nz d :=
    fun d hd => if_pos hd
  have hfull : full (fun d => (regionOf c x.p.names (columnRegion c org r z nz) d).2) x.p.names =
      full (fun d => (columnRegion c org r z nz d).2) x.p.names := full_congr fun d hd => by rw [hreg d hd]
  refine ⟨l, (hl.lens fun d hd => by rw [hreg d hd]).vals fun σ _ => h.p.only _ _ fun d hd => by rw [hreg d hd], ?_⟩
  have ez : zDim c (some axis) = .ok z := by simp [zDim, axisDim, getShape, hax]
  have en : getLength c z = .ok nz := by simp [getLength, h.levels]
  unfold altitude
  rw [ez, Res.ok_bind, en, Res.ok_bind, hs.get h.nodup h.inOrg, Res.ok_bind, Res.ok_bind]
  unfold adaptConverter
  rw [e0, Res.ok_bind, e1, Res.ok_bind, e2, Res.ok_bind]
  have el' : readConverter c (.ok x.p.names) get b2 =
      .ok ⟨full (fun d => (columnRegion c org r z nz d).2) x.p.names, some l⟩ := by rw [← hfull]; exact el
  rw [el', Res.ok_bind]
  dsimp only [Option.getD_some]
  rw [full_stepOf]
  rfl

theorem altitude_ok {c : Cdm} {rd : Reader (Option ℝ)} {axis : String} {v : Vars} {get : Source (Option ℝ)} {z : String}
    {nz : ℕ} {org : List String} {x : Inputs} (h : Given c rd axis v get z nz org x) {r : String → ℕ × ℕ} {req : Builder}
    (hs : Asks org r req) (hw : Within org (lengthIn c) req) (hf : Fits c org r) (junk : ℕ → Option ℝ) {high : Bool}
    (hdir : ∀ l, Values (fun d => (columnRegion c org r z nz d).2) x.p.names
        (fun σ => x.p.val fun d => (columnRegion c org r z nz d).1 + σ d) l →
      direction (full (fun d => (columnRegion c org r z nz d).2) x.p.names) l
          ((nz - 1) * stride (fun d => (columnRegion c org r z nz d).2) z x.p.names) = .ok (some high)) :
    ∃ L, altitude c rd (some axis) v (.ok x.p.names) get junk req = .ok (some L) ∧
      Values (fun d => (r d).2) org (fun τ => altitudeAt x z nz high (within org fun d => (r d).1 + τ d)) L := by
  obtain ⟨vp, hvp, e⟩ := altitude_start h hs hf junk
  rw [e, hdir vp hvp, Res.ok_bind]
  dsimp only
  have hlz : lengthIn c z = nz := by simp [lengthIn, h.levels]
  have hfz := hf z h.inOrg
  rw [hlz] at hfz
  have hpl := planOf_ok high hfz.2 hfz.1 h.large
  set pl := planOf high nz (r z).1 (r z).2 with hpldef
  have hlarge := h.large
  have hfits := hpl.fits
  -- the slice of the other variables
  set r' : String → ℕ × ℕ := Function.update r z (pl.start, pl.size) with hr'
  have hset := set_ok hs hw h.nodup h.inOrg pl.start pl.size
  rw [hlz, wadd_eq (by omega)] at hset
  rcases hset with ⟨hlt, -⟩ | ⟨-, sb, esb, hsb, -⟩
  · omega
  rw [esb]
  have hch : changed (sb, Res.ok ()) = .ok sb := rfl
  rw [hch, Res.ok_bind]
  have hf' : Fits c org r' := by
    intro d hd
    by_cases hdz : d = z
    · subst hdz
      rw [hr', Function.update_self, hlz]
      exact ⟨hfits.2, hfits.1⟩
    · rw [hr', Function.update_of_ne hdz]
      exact hf d hd
  obtain ⟨vsap, esap, hsap⟩ := readVar_ok h.sap h.nodup hsb hf'
  obtain ⟨vsgp, esgp, hsgp⟩ := readVar_ok h.sgp h.nodup hsb hf'
  obtain ⟨vt, et, ht⟩ := readVar_ok h.t h.nodup hsb hf'
  unfold columns
  rw [esap, Res.ok_bind, esgp, Res.ok_bind, et, Res.ok_bind]
  dsimp only
  rw [sliceDims_ok h.nodup hs fun d hd => (hf d hd).1, Res.ok_bind]
  simp only [keepZ_full _ h.sap.data.nodup, keepZ_full _ h.sgp.data.nodup, keepZ_full _ h.t.data.nodup,
    keepZ_full _ h.p.nodup, keepZ_full _ h.nodup, full_stepOf]
  -- the humidity
  have hhum : ∃ q : Option Arr, readHumidity c rd v.sHum sb =
        .ok (q.map fun a => (full a.shape.len a.shape.names, a.data)) ∧
      (∀ a ∈ q, a.shape.names.Nodup ∧ a.shape.len = (fun d => (regionOf c org r' d).2) ∧
        Values a.shape.len a.shape.names a.val a.data ∧ Covers c org a.shape.names) ∧
      ∀ t : Arr, t.val = (fun σ => x.t.val fun d => (regionOf c org r' d).1 + σ d) →
        ∀ σ, tempAt t q σ = x.temp fun d => (regionOf c org r' d).1 + σ d := by
    cases hq : x.q with
    | none =>
      refine ⟨none, by unfold readHumidity; rw [h.dry hq]; rfl, (fun a ha => absurd ha (by simp)), fun t ht σ => ?_⟩
      simp [tempAt, Inputs.temp, virtual_eq, hq, ht]
    | some q =>
      obtain ⟨hne, hq'⟩ := h.humid q hq
      obtain ⟨b, eb, hb⟩ := adaptVar_ok hq' h.nodup hsb fun d _ hdo => (hf' d hdo).2
      have hfit := regionOf_fits hq' hf'
      obtain ⟨b', eb', hb'⟩ := adaptVar_ok hq' hq'.data.nodup hb fun d hd _ => (hfit d hd).2
      have hb'' := asks_congr (reg' := regionOf c org r') hb' fun d hd => by
        rw [show regionOf c q.names (regionOf c org r') d = if d ∈ q.names then regionOf c org r' d else _ from rfl, if_pos hd]
      obtain ⟨l, el, hl⟩ := hq'.data.slice _ b' hb'' hfit
      refine ⟨some ⟨⟨fun d => (regionOf c org r' d).2, q.names⟩, l, fun σ => q.val fun d => (regionOf c org r' d).1 + σ d⟩,
        ?_, fun a ha => ?_, fun t ht σ => ?_⟩
      · unfold readHumidity
        rw [if_neg hne, eb, Res.ok_bind, eb', Res.ok_bind, el, Res.ok_bind]
        dsimp only
        rw [sliceDims_ok hq'.data.nodup hb fun d hd => (hfit d hd).1, Res.ok_bind]
        rfl
      · cases ha
        exact ⟨hq'.data.nodup, rfl, hl, h.covers.2.2.2.2 q hq⟩
      · simp [tempAt, Inputs.temp, virtual_eq, hq, ht]
  obtain ⟨q, eq, hq, htemp⟩ := hhum
  -- the loop
  have hpos : ∀ d, 0 < loopLen org r d := by
    intro d
    unfold loopLen
    split_ifs with h'
    · exact (hf d h').1
    · exact Nat.one_pos
  have hlens : ∀ names : List String, Covers c org names → ∀ d ∈ names, d ≠ z → (regionOf c org r' d).2 = loopLen org r d := by
    intro names hc d hd hdz
    rw [regionOf_len hc d hd]
    unfold loopLen
    split_ifs
    · rw [hr', Function.update_of_ne hdz]
    · rfl
  have hone : ∀ d, d ∉ org → loopLen org r d = 1 := fun d hd => if_neg hd
  have hr'z : regionOf c org r' z = (pl.start, pl.size) := by
    unfold regionOf
    rw [if_pos h.inOrg, hr', Function.update_self]
  have hcol := columns_ok (glen := loopLen org r) hpos h.nodup h.inOrg (olen := fun d => (r d).2)
    (fun d hd _ => (if_pos hd).symm) hpl
    (sap := ⟨⟨fun d => (regionOf c org r' d).2, x.sap.names⟩, vsap, fun σ => x.sap.val fun d => (regionOf c org r' d).1 + σ d⟩)
    (sgp := ⟨⟨fun d => (regionOf c org r' d).2, x.sgp.names⟩, vsgp, fun σ => x.sgp.val fun d => (regionOf c org r' d).1 + σ d⟩)
    (t := ⟨⟨fun d => (regionOf c org r' d).2, x.t.names⟩, vt, fun σ => x.t.val fun d => (regionOf c org r' d).1 + σ d⟩)
    (p := ⟨⟨fun d => (columnRegion c org r z nz d).2, x.p.names⟩, vp,
      fun σ => x.p.val fun d => (columnRegion c org r z nz d).1 + σ d⟩) (q := q) (by
      intro a ha
      simp only [List.cons_append, List.nil_append, List.mem_cons, Option.mem_toList] at ha
      rcases ha with rfl | rfl | rfl | rfl | ha
      · exact ⟨h.sap.data.nodup, hlens _ h.covers.1, fun d _ => hone d, hsap⟩
      · exact ⟨h.sgp.data.nodup, hlens _ h.covers.2.1, fun d _ => hone d, hsgp⟩
      · exact ⟨h.t.data.nodup, hlens _ h.covers.2.2.1, fun d _ => hone d, ht⟩
      · refine ⟨h.p.nodup, fun d hd hdz => ?_, fun d _ => hone d, hvp⟩
        show (columnRegion c org r z nz d).2 = _
        unfold columnRegion
        rw [Function.update_of_ne hdz, regionOf_len h.covers.2.2.2.1 d hd]
      · obtain ⟨k1, k2, k3, k4⟩ := hq a ha
        exact ⟨k1, by rw [k2]; exact hlens _ k4, fun d _ => hone d, k3⟩)
    h.surface.1 h.surface.2 (by show (columnRegion c org r z nz z).2 = nz; simp [columnRegion])
    (by show (regionOf c org r' z).2 = _; rw [hr'z]) (fun a ha => by rw [(hq a ha).2.1]; show (regionOf c org r' z).2 = _; rw [hr'z])
    junk
  obtain ⟨g0, g1, g, L, eg0, eg1, eg, eL, hL⟩ := hcol
  rw [eg0, Res.ok_bind, eq, Res.ok_bind]
  have harr : ((q.map fun a => (full a.shape.len a.shape.names, a.data)).toList.map fun h => keepZ z h.1) =
      q.toList.map fun a => arr a.shape.len z a.shape.names := by
    cases hqe : q with
    | none => rfl
    | some a => simp [keepZ_full _ (hq a hqe).1]
  have hstr : ((q.map fun a => (full a.shape.len a.shape.names, a.data)).elim 0 fun h => stepOf h.1 z) =
      q.elim 0 fun a => stride a.shape.len z a.shape.names := by
    cases q with
    | none => rfl
    | some a => simp [full_stepOf]
  have hdat : (q.map fun a => (full a.shape.len a.shape.names, a.data)).map Prod.snd = q.map Arr.data := by
    cases q <;> rfl
  rw [harr, eg1, Res.ok_bind, eg, Res.ok_bind, hstr, hdat, full_volume]
  rw [eL, Res.ok_bind]
  refine ⟨L, rfl, hL.vals fun τ hτ => ?_⟩
  dsimp only
  -- the values
  have hτz := hτ z h.inOrg
  have hin : ∀ d, d ≠ z → (regionOf c org r' d).1 + within org τ d = within org (fun d => (r d).1 + τ d) d := by
    intro d hd
    unfold regionOf within
    split_ifs
    · rw [hr', Function.update_of_ne hd]
    · rfl
  have hsurf : ∀ (a : Converters.Field (Option ℝ)) unit w, Has c rd w unit a.names a.val → z ∉ a.names →
      (a.val fun d => (regionOf c org r' d).1 + within org τ d) = a.val (within org fun d => (r d).1 + τ d) := by
    intro a unit w ha hz
    exact ha.data.only _ _ fun d hd => hin d fun h => hz (h ▸ hd)
  rw [hsurf x.sgp _ _ h.sgp h.surface.2, hsurf x.sap _ _ h.sap h.surface.1]
  unfold altitudeAt
  have hlay : within org (fun d => (r d).1 + τ d) z = (r z).1 + τ z := if_pos h.inOrg
  rw [hlay]
  obtain ⟨i, hi, -, hil⟩ := hpl.covers ((r z).1 + τ z) (by omega) (by omega)
  refine climbed_congr fun j hj => ?_
  have hj' : j < pl.size := by omega
  have hlow := hpl.low j hj'
  constructor
  · congr 1
    funext d
    by_cases hdz : d = z
    · subst hdz
      simp [columnRegion]
    · rw [Function.update_of_ne hdz, Function.update_of_ne hdz]
      unfold columnRegion
      rw [Function.update_of_ne hdz]
      unfold regionOf within
      split_ifs
      · rfl
      · rfl
  · rw [htemp _ rfl]
    congr 1
    funext d
    by_cases hdz : d = z
    · subst hdz
      rw [Function.update_self, Function.update_self, hr'z]
      dsimp only
      omega
    · rw [Function.update_of_ne hdz, Function.update_of_ne hdz]
      exact hin d hdz

/-! ## The direction -/

theorem scan_found {l : List (Option ℝ)} {last : ℕ} {d : Bool} {j : ℕ} {a b : Option ℝ} (ha : l[j]? = some a)
    (hb : l[j + last]? = some b) (hd : highStart a b = some d) : ∀ (m n : ℕ), n ≤ j → j < n + m →
    (∀ i, n ≤ i → i < j → ∃ u w, l[i]? = some u ∧ l[i + last]? = some w ∧ highStart u w = none) →
    scan l last m n = .ok (some d)
  | 0, n, h1, h2, _ => by omega
  | m + 1, n, h1, h2, h => by
    rw [scan]
    by_cases hn : n = j
    · subst hn
      rw [readAt_some ha, Res.ok_bind, readAt_some hb, Res.ok_bind, hd]
    · obtain ⟨u, w, e1, e2, e3⟩ := h n le_rfl (by omega)
      rw [readAt_some e1, Res.ok_bind, readAt_some e2, Res.ok_bind, e3]
      exact scan_found ha hb hd m (n + 1) (by omega) (by omega) fun i h3 h4 => h i (by omega) h4

theorem scan_beyond {l : List (Option ℝ)} {last : ℕ} {j : ℕ} (hb : l[j + last]? = none) : ∀ (m n : ℕ), n ≤ j → j < n + m →
    j < l.length →
    (∀ i, n ≤ i → i < j → ∃ u w, l[i]? = some u ∧ l[i + last]? = some w ∧ highStart u w = none) →
    scan l last m n = .ub
  | 0, n, h1, h2, _, _ => by omega
  | m + 1, n, h1, h2, h0, h => by
    rw [scan]
    by_cases hn : n = j
    · subst hn
      rw [readAt_some (List.getElem?_eq_getElem h0), Res.ok_bind]
      simp [readAt, hb]
    · obtain ⟨u, w, e1, e2, e3⟩ := h n le_rfl (by omega)
      rw [readAt_some e1, Res.ok_bind, readAt_some e2, Res.ok_bind, e3]
      exact scan_beyond hb m (n + 1) (by omega) (by omega) h0 fun i h3 h4 => h i (by omega) h4

theorem scan_nothing {l : List (Option ℝ)} {last : ℕ} : ∀ (m n : ℕ),
    (∀ i, n ≤ i → i < n + m → ∃ u w, l[i]? = some u ∧ l[i + last]? = some w ∧ highStart u w = none) →
    scan l last m n = .ok none
  | 0, _, _ => rfl
  | m + 1, n, h => by
    obtain ⟨u, w, e1, e2, e3⟩ := h n le_rfl (by omega)
    rw [scan, readAt_some e1, Res.ok_bind, readAt_some e2, Res.ok_bind, e3]
    exact scan_nothing m (n + 1) fun i h3 h4 => h i (by omega) (by omega)

/-- Values at the places `i` and `i + last` that are not both above 0. -/
def Useless (l : List (Option ℝ)) (last i : ℕ) : Prop := ∀ a b, l[i]? = some (some a) → l[i + last]? = some (some b) → ¬ (0 < a ∧ 0 < b)

theorem useless_none {l : List (Option ℝ)} {last i : ℕ} (h : i + last < l.length) (hu : Useless l last i) :
    ∃ u w, l[i]? = some u ∧ l[i + last]? = some w ∧ highStart u w = none := by
  have h1 : i < l.length := by omega
  refine ⟨l[i], l[i + last], List.getElem?_eq_getElem h1, List.getElem?_eq_getElem h, ?_⟩
  cases ha : l[i] with
  | none => rfl
  | some a =>
    cases hb : l[i + last] with
    | none => rfl
    | some b =>
      show (if 0 < a ∧ 0 < b then some (decide (b < a)) else none) = none
      rw [if_neg (hu a b (by rw [List.getElem?_eq_getElem h1, ha]) (by rw [List.getElem?_eq_getElem h, hb]))]

/-- **C84** (the direction, exactly). The code looks at all places of the array, one after the other, and compares with
the place `last` further on, whether or not it is in the same column: the direction is that of the first pair of
positive values. -/
theorem C84_direction_first_pair (len : String → ℕ) (names : List String) (hn : names.Nodup) (hpos : ∀ d ∈ names, 0 < len d)
    (l : List (Option ℝ)) (hl : l.length = (names.map len).prod) (last : ℕ) (j : ℕ) (a b : ℝ) (ha : l[j]? = some (some a))
    (hb : l[j + last]? = some (some b)) (ha0 : 0 < a) (hb0 : 0 < b) (hfirst : ∀ i, i < j → Useless l last i) :
    direction (full len names) l last = .ok (some (decide (b < a))) := by
  have hj := (List.getElem?_eq_some_iff.1 hb).1
  rw [direction_ok hn hpos]
  refine scan_found ha hb (by simp [highStart, ha0, hb0]) _ 0 (by omega) (by omega) fun i _ hi => ?_
  exact useless_none (by omega) (hfirst i hi)

/-- **C84** (the code, undefined). Without any pair of positive values the loop goes on to the places whose partner lies
behind the end of the array. -/
theorem C84_direction_beyond_the_end (len : String → ℕ) (names : List String) (hn : names.Nodup)
    (hpos : ∀ d ∈ names, 0 < len d) (l : List (Option ℝ)) (hl : l.length = (names.map len).prod) (last : ℕ)
    (hlast : 0 < last) (hu : ∀ i, Useless l last i) : direction (full len names) l last = .ub := by
  have hp : 0 < (names.map len).prod := prod_positive _ (by
    intro x hx; obtain ⟨d, hd, rfl⟩ := List.mem_map.1 hx; exact hpos d hd)
  rw [direction_ok hn hpos]
  refine scan_beyond (j := l.length - last) (List.getElem?_eq_none (by omega)) _ 0 (by omega) (by omega) (by omega)
    fun i _ hi => useless_none (by omega) (hu i)

theorem direction_nothing {len : String → ℕ} {names : List String} (hn : names.Nodup)
    (hpos : ∀ d ∈ names, 0 < len d) {l : List (Option ℝ)} (hl : l.length = (names.map len).prod)
    (hu : ∀ i, Useless l 0 i) : direction (full len names) l 0 = .ok none := by
  rw [direction_ok hn hpos]
  exact scan_nothing _ 0 fun i _ hi => useless_none (by omega) (hu i)

/-! ## Columns -/

theorem stride_append {len : String → ℕ} {z : String} {post : List String} : ∀ {pre : List String}, z ∉ pre →
    stride len z (pre ++ z :: post) = (pre.map len).prod
  | [], _ => by simp [stride]
  | n :: pre, h => by
    rw [List.mem_cons, not_or] at h
    rw [List.cons_append, stride, if_neg (fun e => h.1 e.symm), stride_append h.2, List.map_cons, List.prod_cons]

theorem place_append (len : String → ℕ) (a b : List String) (σ : String → ℕ) :
    place len (a ++ b) σ = place len a σ + (a.map len).prod * place len b σ := by
  unfold place
  rw [List.map_append, List.map_append, pos_append _ _ _ _ (by simp)]

theorem prod_one {len : String → ℕ} : ∀ {l : List String}, (∀ d ∈ l, len d = 1) → (l.map len).prod = 1
  | [], _ => rfl
  | d :: l, h => by rw [List.map_cons, List.prod_cons, h d (by simp), prod_one fun e he => h e (by simp [he])]

/-- The pressures at both ends of a column are above 0. -/
def Ends (f : (String → ℕ) → Option ℝ) (z : String) (nz : ℕ) (σ : String → ℕ) (a b : ℝ) : Prop :=
  f (Function.update σ z 0) = some a ∧ f (Function.update σ z (nz - 1)) = some b ∧ 0 < a ∧ 0 < b

theorem direction_columns {len : String → ℕ} {pre post : List String} {z : String} (hn : (pre ++ z :: post).Nodup)
    (hpos : ∀ d ∈ pre ++ z :: post, 0 < len d) (hpost : ∀ d ∈ post, len d = 1) {f : (String → ℕ) → Option ℝ}
    {l : List (Option ℝ)} (hl : Values len (pre ++ z :: post) f l) {high : Bool}
    (hex : ∃ σ a b, (∀ d ∈ pre ++ z :: post, σ d < len d) ∧ Ends f z (len z) σ a b)
    (hall : ∀ σ a b, (∀ d ∈ pre ++ z :: post, σ d < len d) → Ends f z (len z) σ a b → (b < a ↔ high = true)) :
    direction (full len (pre ++ z :: post)) l ((len z - 1) * stride len z (pre ++ z :: post)) = .ok (some high) := by
  classical
  have hz0 : 0 < len z := hpos z (by simp)
  have hnz : z ∉ pre := fun h => (List.nodup_append.1 hn).2.2 z h z (by simp) rfl
  have hS := stride_append (len := len) (post := post) hnz
  have hV : ((pre ++ z :: post).map len).prod = (pre.map len).prod * len z := by
    rw [List.map_append, List.prod_append, List.map_cons, List.prod_cons, prod_one hpost, Nat.mul_one]
  have hS0 : 0 < (pre.map len).prod := prod_positive _ (by
    intro x hx; obtain ⟨d, hd, rfl⟩ := List.mem_map.1 hx; exact hpos d (by simp [hd]))
  set last := (len z - 1) * stride len z (pre ++ z :: post) with hlast
  have hlast' : last + (pre.map len).prod = ((pre ++ z :: post).map len).prod := by
    rw [hlast, hS, hV, Nat.sub_mul, Nat.one_mul, Nat.mul_comm (pre.map len).prod]
    have : (pre.map len).prod ≤ len z * (pre.map len).prod := Nat.le_mul_of_pos_left _ hz0
    omega
  -- a column for every place
  have hcol : ∀ σ : String → ℕ, (∀ d ∈ pre ++ z :: post, σ d < len d) →
      ∃ i, i < (pre.map len).prod ∧ l[i]? = some (f (Function.update σ z 0)) ∧
        l[i + last]? = some (f (Function.update σ z (len z - 1))) := by
    intro σ hσ
    have hup : ∀ k, k < len z → ∀ d ∈ pre ++ z :: post, Function.update σ z k d < len d := by
      intro k hk d hd
      by_cases hdz : d = z
      · subst hdz; rw [Function.update_self]; exact hk
      · rw [Function.update_of_ne hdz]; exact hσ d hd
    have h1 := hl.get _ (hup (len z - 1) (by omega))
    rw [place_update len z (len z - 1) σ hn] at h1
    refine ⟨place len (pre ++ z :: post) (Function.update σ z 0), ?_, hl.get _ (hup 0 hz0), h1⟩
    have h2 := (List.getElem?_eq_some_iff.1 h1).1
    rw [hl.length] at h2
    omega
  have hback : ∀ i, i < (pre.map len).prod → ∃ σ : String → ℕ, (∀ d ∈ pre ++ z :: post, σ d < len d) ∧
      l[i]? = some (f (Function.update σ z 0)) ∧ l[i + last]? = some (f (Function.update σ z (len z - 1))) := by
    intro i hi
    obtain ⟨q, hq, e⟩ := exists_pos hi
    have hnp : pre.Nodup := (List.nodup_append.1 hn).1
    have hql : q.length = pre.length := by have := InShape.length_eq hq; simpa using this
    set σ : String → ℕ := fun d => if d ∈ pre then assign pre q d else 0 with hσdef
    have hσ : ∀ d ∈ pre ++ z :: post, σ d < len d := by
      intro d hd
      rw [hσdef]
      dsimp only
      split_ifs with h
      · exact inShape_of_map hq d h
      · exact hpos d hd
    have hu : Function.update σ z 0 = σ := by
      rw [Function.update_eq_self_iff, hσdef]
      simp [hnz]
    have hpl : place len (pre ++ z :: post) (Function.update σ z 0) = i := by
      rw [hu, place_append]
      have h1 : place len pre σ = i := by
        unfold place
        have : pre.map σ = pre.map (assign pre q) := List.map_congr_left fun d hd => if_pos hd
        rw [this, map_assign hnp hql]
        exact e
      have h2 : place len (z :: post) σ = 0 := by
        have h3 : place len (z :: post) σ = place len (z :: post) fun _ => 0 := place_congr fun d hd => by
          refine if_neg fun h => ?_
          exact (List.nodup_append.1 hn).2.2 d h d hd rfl
        rw [h3]
        have h4 : ∀ m : List String, place len m (fun _ => 0) = 0 := by
          intro m
          induction m with
          | nil => rfl
          | cons d m ih =>
            have : place len (d :: m) (fun _ => 0) = 0 + len d * place len m fun _ => 0 := rfl
            rw [this, ih]; simp
        exact h4 _
      rw [h1, h2, Nat.mul_zero, Nat.add_zero]
    have hup : ∀ k, k < len z → ∀ d ∈ pre ++ z :: post, Function.update σ z k d < len d := by
      intro k hk d hd
      by_cases hdz : d = z
      · subst hdz; rw [Function.update_self]; exact hk
      · rw [Function.update_of_ne hdz]; exact hσ d hd
    have h1 := hl.get _ (hup (len z - 1) (by omega))
    rw [place_update len z (len z - 1) σ hn, hpl] at h1
    have h0 := hl.get _ (hup 0 hz0)
    rw [hpl] at h0
    exact ⟨σ, hσ, h0, h1⟩
  -- the first useful place
  have hsome : ∃ i, ¬ Useless l last i := by
    obtain ⟨σ, a, b, hσ, h1, h2, h3, h4⟩ := hex
    obtain ⟨i, -, e1, e2⟩ := hcol σ hσ
    exact ⟨i, fun hu => hu a b (by rw [e1, h1]) (by rw [e2, h2]) ⟨h3, h4⟩⟩
  have hfind := Nat.find_spec hsome
  set j := Nat.find hsome with hj
  have hmin : ∀ i, i < j → Useless l last i := fun i hi => by
    by_contra hc
    exact Nat.find_min hsome hi hc
  unfold Useless at hfind
  push Not at hfind
  obtain ⟨a, b, e1, e2, h3, h4⟩ := hfind
  have hjlt : j < (pre.map len).prod := by
    have := (List.getElem?_eq_some_iff.1 e2).1
    rw [hl.length] at this
    omega
  obtain ⟨σ, hσ, k1, k2⟩ := hback j hjlt
  rw [e1] at k1
  rw [e2] at k2
  have hab := hall σ a b hσ ⟨(Option.some.inj k1).symm, (Option.some.inj k2).symm, h3, h4⟩
  rw [C84_direction_first_pair len _ hn hpos l hl.length last j a b e1 e2 h3 h4 hmin]
  congr 2
  cases high with
  | true => simpa using hab
  | false => simpa using hab

/-! ## The claims -/

/-- The index of a column in the request. -/
def InRequest (org : List String) (r : String → ℕ × ℕ) (z : String) (σ : String → ℕ) : Prop :=
  ∀ d, (d ∈ org → d ≠ z → (r d).1 ≤ σ d ∧ σ d < (r d).1 + (r d).2) ∧ (d ∉ org → σ d = 0)

/-- **C84** (the first column). If the pressures at both ends of the first column of the request are positive, the
converter delivers for every requested index the altitude reached from the surface, with the layers in the order of
this column. -/
theorem C84_altitude (c : Cdm) (rd : Reader (Option ℝ)) (axis : String) (v : Vars) (get : Source (Option ℝ)) (z : String)
    (nz : ℕ) (org : List String) (x : Inputs) (h : Given c rd axis v get z nz org x) (r : String → ℕ × ℕ) (req : Builder)
    (hs : Asks org r req) (hw : Within org (lengthIn c) req) (hf : Fits c org r) (junk : ℕ → Option ℝ) (a b : ℝ)
    (he : Ends x.p.val z nz (within org fun d => (r d).1) a b) :
    ∃ L, altitude c rd (some axis) v (.ok x.p.names) get junk req = .ok (some L) ∧
      Values (fun d => (r d).2) org
        (fun τ => altitudeAt x z nz (decide (b < a)) (within org fun d => (r d).1 + τ d)) L := by
  refine altitude_ok h hs hw hf junk fun l hl => ?_
  have hlz : lengthIn c z = nz := by simp [lengthIn, h.levels]
  have hnz : 0 < nz := by have := (h.known z h.inP).1; omega
  have hzl : (columnRegion c org r z nz z).2 = nz := by simp [columnRegion]
  have hpos : ∀ d ∈ x.p.names, 0 < (columnRegion c org r z nz d).2 := by
    intro d hd
    by_cases hdz : d = z
    · subst hdz; rw [hzl]; exact hnz
    · unfold columnRegion
      rw [Function.update_of_ne hdz]
      unfold regionOf
      split_ifs with hdo
      · exact (hf d hdo).1
      · exact (h.known d hd).1
  have hzero : place (fun d => (columnRegion c org r z nz d).2) x.p.names (Function.update (fun _ => 0) z 0) = 0 := by
    rw [Function.update_eq_self_iff.2 rfl]
    have h4 : ∀ m : List String, place (fun d => (columnRegion c org r z nz d).2) m (fun _ => 0) = 0 := by
      intro m
      induction m with
      | nil => rfl
      | cons d m ih =>
        have : place (fun d => (columnRegion c org r z nz d).2) (d :: m) (fun _ => 0) =
          0 + (columnRegion c org r z nz d).2 * place (fun d => (columnRegion c org r z nz d).2) m fun _ => 0 := rfl
        rw [this, ih]; simp
    exact h4 _
  have hval : ∀ k, k < nz → l[k * stride (fun d => (columnRegion c org r z nz d).2) z x.p.names]? =
      some (x.p.val (Function.update (within org fun d => (r d).1) z k)) := by
    intro k hk
    have hg := hl.get (Function.update (fun _ => 0) z k) fun d hd => by
      by_cases hdz : d = z
      · subst hdz; rw [Function.update_self, hzl]; exact hk
      · rw [Function.update_of_ne hdz]; exact hpos d hd
    rw [place_update _ z k _ h.p.nodup, hzero, Nat.zero_add] at hg
    rw [hg]
    congr 2
    funext d
    by_cases hdz : d = z
    · subst hdz; simp [columnRegion]
    · rw [Function.update_of_ne hdz, Function.update_of_ne hdz]
      unfold columnRegion
      rw [Function.update_of_ne hdz]
      unfold regionOf within
      split_ifs <;> rfl
  obtain ⟨e1, e2, h3, h4⟩ := he
  have v0 := hval 0 hnz
  rw [Nat.zero_mul, e1] at v0
  have v1 := hval (nz - 1) (by omega)
  rw [e2] at v1
  exact C84_direction_first_pair _ _ h.p.nodup hpos l hl.length _ 0 a b v0 (by rw [Nat.zero_add]; exact v1) h3 h4
    fun i hi => absurd hi (Nat.not_lt_zero i)

/-- **C84** (undefined columns). If the vertical dimension is the slowest of the pressure in the request, columns with
undefined pressures may come first: the direction is that of the columns with positive pressures at both ends. -/
theorem C84_altitude_by_columns (c : Cdm) (rd : Reader (Option ℝ)) (axis : String) (v : Vars) (get : Source (Option ℝ))
    (z : String) (nz : ℕ) (org : List String) (x : Inputs) (h : Given c rd axis v get z nz org x) (r : String → ℕ × ℕ)
    (req : Builder) (hs : Asks org r req) (hw : Within org (lengthIn c) req) (hf : Fits c org r) (junk : ℕ → Option ℝ)
    (pre post : List String) (hshape : x.p.names = pre ++ z :: post) (hpost : ∀ d ∈ post, d ∈ org → (r d).2 = 1) (high : Bool)
    (hex : ∃ σ a b, InRequest org r z σ ∧ Ends x.p.val z nz σ a b)
    (hall : ∀ σ a b, InRequest org r z σ → Ends x.p.val z nz σ a b → (b < a ↔ high = true)) :
    ∃ L, altitude c rd (some axis) v (.ok x.p.names) get junk req = .ok (some L) ∧
      Values (fun d => (r d).2) org (fun τ => altitudeAt x z nz high (within org fun d => (r d).1 + τ d)) L := by
  refine altitude_ok h hs hw hf junk fun l hl => ?_
  have hlz : lengthIn c z = nz := by simp [lengthIn, h.levels]
  have hnz : 0 < nz := by have := (h.known z h.inP).1; omega
  have hzl : (columnRegion c org r z nz z).2 = nz := by simp [columnRegion]
  have hreg : ∀ d, d ≠ z → columnRegion c org r z nz d = regionOf c org r d := fun d hd => Function.update_of_ne hd _ _
  have hzpost : ∀ d ∈ post, d ≠ z := by
    intro d hd e
    have hn := h.p.nodup
    rw [hshape, List.nodup_append] at hn
    exact (List.nodup_cons.1 hn.2.1).1 (e ▸ hd)
  have hone : ∀ d ∈ x.p.names, d ∉ org → lengthIn c d = 1 := h.covers.2.2.2.1
  have hpos : ∀ d ∈ x.p.names, 0 < (columnRegion c org r z nz d).2 := by
    intro d hd
    by_cases hdz : d = z
    · subst hdz; rw [hzl]; exact hnz
    · rw [hreg d hdz]
      unfold regionOf
      split_ifs with hdo
      · exact (hf d hdo).1
      · exact (h.known d hd).1
  -- between local and global indices
  have hends : ∀ σ : String → ℕ, (∀ d ∈ x.p.names, σ d < (columnRegion c org r z nz d).2) → ∀ k,
      (x.p.val fun d => (columnRegion c org r z nz d).1 + Function.update σ z k d) =
      x.p.val (Function.update (fun d => if d ∈ org then (if d ∈ x.p.names then (r d).1 + σ d else (r d).1) else 0) z k) := by
    intro σ hσ k
    refine h.p.only _ _ fun d hd => ?_
    by_cases hdz : d = z
    · subst hdz; simp [columnRegion]
    · have := hσ d hd
      rw [hreg d hdz] at this ⊢
      rw [Function.update_of_ne hdz, Function.update_of_ne hdz]
      unfold regionOf at this ⊢
      split_ifs with hdo
      · rfl
      · rw [if_neg hdo] at this
        have h1 := hone d hd hdo
        dsimp only at this ⊢
        omega
  rw [hshape] at hl hpos hends ⊢
  have hn := h.p.nodup
  rw [hshape] at hn
  have := direction_columns (len := fun d => (columnRegion c org r z nz d).2) hn hpos (fun d hd => by
      rw [hreg d (hzpost d hd)]
      unfold regionOf
      split_ifs with hdo
      · exact hpost d hd hdo
      · exact hone d (by rw [hshape]; simp [hd]) hdo) hl (high := high) (by
    obtain ⟨σ, a, b, hσ, e1, e2, h3, h4⟩ := hex
    have hex' : ∀ k, (x.p.val fun d => (columnRegion c org r z nz d).1 +
        Function.update (fun d => if d ∈ org ∧ d ≠ z then σ d - (r d).1 else 0) z k d) = x.p.val (Function.update σ z k) := by
      intro k
      refine h.p.only _ _ fun d hd => ?_
      by_cases hdz : d = z
      · subst hdz; simp [columnRegion]
      · rw [Function.update_of_ne hdz, Function.update_of_ne hdz, hreg d hdz]
        unfold regionOf
        by_cases hdo : d ∈ org
        · rw [if_pos hdo, if_pos ⟨hdo, hdz⟩]
          have := (hσ d).1 hdo hdz
          omega
        · rw [if_neg hdo, if_neg (fun h => hdo h.1), (hσ d).2 hdo]
    refine ⟨fun d => if d ∈ org ∧ d ≠ z then σ d - (r d).1 else 0, a, b, fun d hd => ?_, ?_⟩
    · dsimp only
      split_ifs with hd'
      · rw [hreg d hd'.2]
        unfold regionOf
        rw [if_pos hd'.1]
        have := (hσ d).1 hd'.1 hd'.2
        omega
      · exact hpos d hd
    · rw [hzl]
      exact ⟨(hex' 0).trans e1, (hex' (nz - 1)).trans e2, h3, h4⟩) (by
    intro σ a b hσ he
    rw [hzl] at he
    obtain ⟨e1, e2, h3, h4⟩ := he
    have e1 := (hends σ hσ 0).symm.trans e1
    have e2 := (hends σ hσ (nz - 1)).symm.trans e2
    refine hall _ a b (fun d => ⟨fun hdo hdz => ?_, fun hdo => if_neg hdo⟩) ⟨e1, e2, h3, h4⟩
    rw [if_pos hdo]
    split_ifs with hd
    · have := hσ d hd
      rw [hreg d hdz] at this
      unfold regionOf at this
      rw [if_pos hdo] at this
      omega
    · have := (hf d hdo).1
      omega)
  rw [hzl] at this
  exact this

/-- No pressure in the requested columns is above 0. -/
def NoPressure (x : Inputs) (org : List String) (r : String → ℕ × ℕ) (z : String) : Prop :=
  ∀ σ a, InRequest org r z σ → x.p.val σ = some a → a ≤ 0

theorem noPressure_values {c : Cdm} {rd : Reader (Option ℝ)} {axis : String} {v : Vars} {get : Source (Option ℝ)}
    {z : String} {nz : ℕ} {org : List String} {x : Inputs} (h : Given c rd axis v get z nz org x) {r : String → ℕ × ℕ}
    (hf : Fits c org r) (hno : NoPressure x org r z) {l : List (Option ℝ)}
    (hl : Values (fun d => (columnRegion c org r z nz d).2) x.p.names
      (fun σ => x.p.val fun d => (columnRegion c org r z nz d).1 + σ d) l) {i : ℕ} {a : ℝ} (ha : l[i]? = some (some a)) :
    a ≤ 0 := by
  have hi := (List.getElem?_eq_some_iff.1 ha).1
  rw [hl.length] at hi
  obtain ⟨q, hq, e⟩ := exists_pos hi
  have hql : q.length = x.p.names.length := by have := InShape.length_eq hq; simpa using this
  have hin := inShape_of_map hq
  have hg := hl.get (assign x.p.names q) hin
  have hplace : place (fun d => (columnRegion c org r z nz d).2) x.p.names (assign x.p.names q) = i := by
    unfold place
    rw [map_assign h.p.nodup hql]
    exact e
  rw [hplace, ha] at hg
  have hreg : ∀ d, d ≠ z → columnRegion c org r z nz d = regionOf c org r d := fun d hd => Function.update_of_ne hd _ _
  refine hno (fun d => if d ∈ org then (if d ∈ x.p.names then (columnRegion c org r z nz d).1 + assign x.p.names q d
    else (r d).1) else 0) a (fun d => ⟨fun hdo hdz => ?_, fun hdo => if_neg hdo⟩) ?_
  · dsimp only
    rw [if_pos hdo]
    split_ifs with hd
    · have := hin d hd
      rw [hreg d hdz] at this ⊢
      unfold regionOf at this ⊢
      rw [if_pos hdo] at this ⊢
      omega
    · have := (hf d hdo).1
      omega
  · rw [Option.some.inj hg]
    refine h.p.only _ _ fun d hd => ?_
    rw [if_pos hd]
    split_ifs with hdo
    · rfl
    · have hdz : d ≠ z := fun e => hdo (e ▸ h.inOrg)
      have := hin d hd
      rw [hreg d hdz] at this ⊢
      unfold regionOf at this ⊢
      rw [if_neg hdo] at this ⊢
      have h1 := h.covers.2.2.2.1 d hd hdo
      dsimp only at this ⊢
      omega

/-- **C84** (the code, undefined). If there are no pressures above 0 in the request, e.g. if all are undefined, and more
than one level, the code reads behind the end of the pressures; with one level it delivers no data. -/
theorem C84_no_pressure (c : Cdm) (rd : Reader (Option ℝ)) (axis : String) (v : Vars) (get : Source (Option ℝ)) (z : String)
    (nz : ℕ) (org : List String) (x : Inputs) (h : Given c rd axis v get z nz org x) (r : String → ℕ × ℕ) (req : Builder)
    (hs : Asks org r req) (hf : Fits c org r) (junk : ℕ → Option ℝ) (hno : NoPressure x org r z) :
    altitude c rd (some axis) v (.ok x.p.names) get junk req = if nz = 1 then .ok none else .ub := by
  obtain ⟨l, hl, e⟩ := altitude_start h hs hf junk
  have hlz : lengthIn c z = nz := by simp [lengthIn, h.levels]
  have hnz : 0 < nz := by have := (h.known z h.inP).1; omega
  have hpos : ∀ d ∈ x.p.names, 0 < (columnRegion c org r z nz d).2 := by
    intro d hd
    by_cases hdz : d = z
    · subst hdz; simpa [columnRegion] using hnz
    · unfold columnRegion
      rw [Function.update_of_ne hdz]
      unfold regionOf
      split_ifs with hdo
      · exact (hf d hdo).1
      · exact (h.known d hd).1
  have hu : ∀ last i, Useless l last i := by
    intro last i a b ha _ hab
    have := noPressure_values h hf hno hl ha
    linarith [hab.1]
  rw [e]
  by_cases h1 : nz = 1
  · subst h1
    rw [if_pos rfl, Nat.sub_self, Nat.zero_mul, direction_nothing h.p.nodup hpos hl.length (hu 0), Res.ok_bind]
  · rw [if_neg h1, C84_direction_beyond_the_end _ _ h.p.nodup hpos l hl.length _ ?_ (hu _), Res.ub_bind]
    exact Nat.mul_pos (by omega) (Nat.pos_of_ne_zero (stride_ne_zero hpos h.inP))

/-- **C84** (the code). The pairs are not taken from one column: with two times and the vertical dimension first, the
direction comes out wrong although the only column with positive pressures at both ends decreases. -/
theorem C84_direction_across_columns : ∃ (f : (String → ℕ) → Option ℝ) (l : List (Option ℝ)),
    Values (fun d => if d = "lev" then 3 else 2) ["lev", "t"] f l ∧
    (∀ σ a b, (∀ d ∈ ["lev", "t"], σ d < (fun d => if d = "lev" then 3 else 2) d) → Ends f "lev" 3 σ a b → b < a) ∧
    (∃ σ a b, (∀ d ∈ ["lev", "t"], σ d < (fun d => if d = "lev" then 3 else 2) d) ∧ Ends f "lev" 3 σ a b) ∧
    direction (full (fun d => if d = "lev" then 3 else 2) ["lev", "t"]) l
      ((3 - 1) * stride (fun d => if d = "lev" then 3 else 2) "lev" ["lev", "t"]) = .ok (some false) := by
  refine ⟨fun σ => some (([1000, 500, 0, 1000, 500, 10] : List ℝ).getD (σ "lev" + 3 * σ "t") 0),
    [some 1000, some 500, some 0, some 1000, some 500, some 10], ⟨rfl, fun σ hσ => ?_⟩, ?_, ?_, ?_⟩
  · have h1 := hσ "lev" (by simp)
    have h2 := hσ "t" (by simp)
    simp only [if_true, show ("t" = "lev") = False by simp, if_false] at h1 h2
    have hp : place (fun d => if d = "lev" then 3 else 2) ["lev", "t"] σ = σ "lev" + 3 * σ "t" := by
      simp [place, pos]
    rw [hp]
    have : σ "lev" + 3 * σ "t" < 6 := by omega
    generalize σ "lev" + 3 * σ "t" = n at this
    obtain rfl | rfl | rfl | rfl | rfl | rfl : n = 0 ∨ n = 1 ∨ n = 2 ∨ n = 3 ∨ n = 4 ∨ n = 5 := by omega
    all_goals rfl
  · rintro σ a b hσ ⟨h1, h2, h3, h4⟩
    have ht := hσ "t" (by simp)
    simp only [show ("t" = "lev") = False by simp, if_false] at ht
    simp only [Function.update_self, Function.update_of_ne (show ("t" : String) ≠ "lev" by decide), Option.some.injEq] at h1 h2
    generalize σ "t" = t at ht h1 h2
    obtain rfl | rfl : t = 0 ∨ t = 1 := by omega
    · simp at h1 h2; linarith
    · simp at h1 h2; linarith
  · refine ⟨fun _ => 1, 1000, 10, by simp, by simp [Function.update], by simp [Function.update], by norm_num, by norm_num⟩
  · have := C84_direction_first_pair (fun d => if d = "lev" then 3 else 2) ["lev", "t"] (by decide) (by simp)
      [some 1000, some 500, some 0, some 1000, some 500, some 10] rfl 2 1 500 1000 rfl rfl (by norm_num) (by norm_num)
      (fun i hi => by
        obtain rfl : i = 0 := by omega
        intro a b ha hb
        simp at ha hb
        rintro ⟨-, h⟩
        linarith)
    have hs : (3 - 1) * stride (fun d => if d = "lev" then 3 else 2) "lev" ["lev", "t"] = 2 := by simp [stride]
    rw [hs, this]
    congr 2
    simp
    norm_num

/-! ## The formula -/

/-- **C84** (the hypsometric equation). With positive pressures up to the level, the altitude is that of the surface and
the sum of the thicknesses of the layers below. -/
theorem C84_sum_of_layers (x : Inputs) (z : String) (nz : ℕ) (high : Bool) (σ : String → ℕ) (g p0 : ℝ) (p T : ℕ → ℝ)
    (hg : x.sgp.val σ = some g) (hp0 : x.sap.val σ = some p0) (h0 : 0 < p0)
    (hp : ∀ i, i < layers high nz (σ z) → x.p.val (Function.update σ z (level high nz i)) = some (p i) ∧ 0 < p i)
    (hT : ∀ i, i < layers high nz (σ z) → x.temp (Function.update σ z (level high nz i)) = some (T i)) :
    altitudeAt x z nz high σ = some (g / 9.80665 + ∑ i ∈ Finset.range (layers high nz (σ z)),
      Real.log ((if i = 0 then p0 else p (i - 1)) / p i) * T i * BF) := by
  unfold altitudeAt
  generalize layers high nz (σ z) = n at hp hT
  rw [hg, hp0, Option.map_some]
  have key : ∀ m, m ≤ n → climbed (some (g / 9.80665)) (some p0)
      (fun i => x.p.val (Function.update σ z (level high nz i))) (fun i => x.temp (Function.update σ z (level high nz i))) m =
      some (g / 9.80665 + ∑ i ∈ Finset.range m, Real.log ((if i = 0 then p0 else p (i - 1)) / p i) * T i * BF) := by
    intro m
    induction m with
    | zero => intro _; simp [climbed]
    | succ m ih =>
      intro hm
      obtain ⟨e1, q1⟩ := hp m (by omega)
      rw [climbed, ih (by omega), Finset.sum_range_succ, ← add_assoc, e1, hT m (by omega)]
      have hb : (if m = 0 then some p0 else x.p.val (Function.update σ z (level high nz (m - 1)))) =
          some (if m = 0 then p0 else p (m - 1)) := by
        split_ifs with h
        · rfl
        · exact (hp (m - 1) (by omega)).1
      have hbp : 0 < (if m = 0 then p0 else p (m - 1)) := by
        split_ifs with h
        · exact h0
        · exact (hp (m - 1) (by omega)).2
      rw [hb]
      unfold thickness
      dsimp only
      rw [if_pos ⟨q1.ne', div_pos hbp q1⟩]
      rfl
  exact key n le_rfl

/-- **C84** (constant temperature). With the same temperature in all layers, the altitude does not depend on the
pressures between: it is the barometric formula from the surface to the level. -/
theorem C84_isothermal (x : Inputs) (z : String) (nz : ℕ) (high : Bool) (σ : String → ℕ) (g p0 T : ℝ) (p : ℕ → ℝ)
    (hg : x.sgp.val σ = some g) (hp0 : x.sap.val σ = some p0) (h0 : 0 < p0) (hz : σ z < nz)
    (hp : ∀ i, i < layers high nz (σ z) → x.p.val (Function.update σ z (level high nz i)) = some (p i) ∧ 0 < p i)
    (hT : ∀ i, i < layers high nz (σ z) → x.temp (Function.update σ z (level high nz i)) = some T) :
    ∃ pk, x.p.val σ = some pk ∧ altitudeAt x z nz high σ = some (g / 9.80665 + Real.log (p0 / pk) * T * BF) := by
  rw [C84_sum_of_layers x z nz high σ g p0 p (fun _ => T) hg hp0 h0 hp hT]
  obtain ⟨n, hn⟩ : ∃ n, layers high nz (σ z) = n + 1 := by
    refine ⟨layers high nz (σ z) - 1, ?_⟩
    unfold layers
    split_ifs <;> omega
  have hlev : level high nz n = σ z := by
    unfold layers at hn
    unfold level
    split_ifs at hn ⊢ <;> omega
  rw [hn] at hp
  have hpn := (hp n (by omega)).1
  rw [hlev, Function.update_eq_self] at hpn
  refine ⟨p n, hpn, ?_⟩
  rw [hn]
  congr 2
  have key : ∀ m, m ≤ n → ∑ i ∈ Finset.range (m + 1), Real.log ((if i = 0 then p0 else p (i - 1)) / p i) * T * BF =
      Real.log (p0 / p m) * T * BF := by
    intro m
    induction m with
    | zero => intro _; simp
    | succ m ih =>
      intro hm
      rw [Finset.sum_range_succ, ih (by omega), if_neg (by omega), Nat.add_sub_cancel]
      have q1 := (hp m (by omega)).2
      have q2 := (hp (m + 1) (by omega)).2
      rw [Real.log_div h0.ne' q1.ne', Real.log_div q1.ne' q2.ne', Real.log_div h0.ne' q2.ne']
      ring
  exact key n le_rfl

/-- **C84** (undefined values). An undefined value at or below a level makes the altitude of the level undefined. -/
theorem C84_undefined_below (x : Inputs) (z : String) (nz : ℕ) (high : Bool) (σ : String → ℕ) (hz : σ z < nz)
    (hu : x.sgp.val σ = none ∨ x.sap.val σ = none ∨ ∃ i, i < layers high nz (σ z) ∧
      (x.p.val (Function.update σ z (level high nz i)) = none ∨ x.t.val (Function.update σ z (level high nz i)) = none ∨
        ∃ q, x.q = some q ∧ q.val (Function.update σ z (level high nz i)) = none)) :
    altitudeAt x z nz high σ = none := by
  have hn : 0 < layers high nz (σ z) := by
    unfold layers
    split_ifs <;> omega
  unfold altitudeAt
  generalize layers high nz (σ z) = n at hu hn
  have plus_none : ∀ a : Option ℝ, plus a none = none := fun a => by cases a <;> rfl
  have temp_none : ∀ ρ, (x.t.val ρ = none ∨ ∃ q, x.q = some q ∧ q.val ρ = none) → x.temp ρ = none := by
    intro ρ h
    unfold Inputs.temp
    rcases h with h | ⟨q, h1, h2⟩
    · rw [h]
      cases x.q with
      | none => rfl
      | some q => cases hq : q.val ρ <;> simp [hq]
    · rw [h1]
      simp [h2]
  have key : ∀ (a0 p0 : Option ℝ) (P T : ℕ → Option ℝ) (m : ℕ), climbed a0 p0 P T m = none → ∀ k, m ≤ k →
      climbed a0 p0 P T k = none := by
    intro a0 p0 P T m hm k hk
    induction k, hk using Nat.le_induction with
    | base => exact hm
    | succ k _ ih => rw [climbed, ih]; rfl
  rcases hu with h | h | ⟨i, hi, h⟩
  · exact key _ _ _ _ 0 (by rw [climbed, h]; rfl) n (by omega)
  · refine key _ _ _ _ 1 ?_ n (by omega)
    rw [climbed, if_pos rfl, h]
    exact plus_none _
  · refine key _ _ _ _ (i + 1) ?_ n (by omega)
    rw [climbed]
    rcases h with h | h
    · rw [h]
      have : ∀ a b : Option ℝ, thickness a none b = none := fun a b => by cases a <;> rfl
      rw [this, plus_none]
    · rw [temp_none _ h]
      have : ∀ a b : Option ℝ, thickness a b none = none := fun a b => by cases a <;> cases b <;> rfl
      rw [this, plus_none]

/-- **C84** (no vertical axis). The name of the axis is taken from a null pointer. -/
theorem C84_no_axis_undefined (c : Cdm) (rd : Reader (Option ℝ)) (v : Vars) (shape : Res (List String))
    (get : Source (Option ℝ)) (junk : ℕ → Option ℝ) (req : Builder) : altitude c rd none v shape get junk req = .ub := rfl

/-! ## Examples -/

/-- Data for the examples: 1000 hPa and 0 at the surface, 250 K, humidity 0.01. -/
def exHypVal (v : String) : Option ℝ :=
  if v = "ps" then some 1000 else if v = "topo" then some 0 else if v = "ap" then some 250 else some 0.01

noncomputable def exHypReader : Reader (Option ℝ) := fun v _ => ideal ((exCdm.shapeOf v).getD []) fun _ => exHypVal v

theorem exHyp_has (v unit : String) (names : List String) (hv : exCdm.shapeOf v = some names) (hn : names.Nodup)
    (hd : ∀ d ∈ names, d ∈ ["lev", "x", "y", "t"]) : Has exCdm exHypReader v unit names (fun _ => exHypVal v) := by
  refine ⟨hv, (exReader_has v unit names hv hn hd).known, ?_⟩
  unfold exHypReader
  rw [hv]
  exact ideal_delivers exCdm hn fun _ _ _ => rfl

/-- The inputs with the pressures `p` on the levels. -/
def exInputs (p : ℕ → Option ℝ) (wet : Bool) : Inputs :=
  ⟨⟨["x", "y", "t"], fun _ => exHypVal "ps"⟩, ⟨["x", "y"], fun _ => exHypVal "topo"⟩, ⟨["lev"], fun _ => exHypVal "ap"⟩,
    if wet then some ⟨["lev"], fun _ => exHypVal "b"⟩ else none, ⟨["lev"], fun σ => p (σ "lev")⟩⟩

theorem exGiven (p : ℕ → Option ℝ) (wet : Bool) : Given exCdm exHypReader "ap" ⟨"ap", if wet then "b" else "", "ps", "topo"⟩
    (ideal ["lev"] fun σ => p (σ "lev")) "lev" 3 exOrg (exInputs p wet) where
  axis := ⟨[], rfl⟩
  levels := rfl
  large := by decide
  nodup := by decide
  inOrg := by decide
  sap := exHyp_has "ps" _ ["x", "y", "t"] rfl (by decide) (by decide)
  sgp := exHyp_has "topo" _ ["x", "y"] rfl (by decide) (by decide)
  t := exHyp_has "ap" _ ["lev"] rfl (by decide) (by decide)
  dry := by cases wet <;> simp [exInputs]
  humid := by
    intro q hq
    cases wet
    · simp [exInputs] at hq
    · simp only [exInputs, if_true, Option.some.injEq] at hq
      subst hq
      exact ⟨by simp, exHyp_has _ _ _ rfl (by decide) (by decide)⟩
  p := ideal_delivers (names := ["lev"]) exCdm (by decide) fun σ τ h => congrArg p (h "lev" (by simp))
  known := (by decide +kernel : ∀ d ∈ ["lev"], 0 < lengthIn exCdm d ∧ lengthIn exCdm d < two64)
  inP := by simp [exInputs]
  surface := by simp [exInputs]
  covers := ⟨exCovers _ (by simp [exInputs]), exCovers _ (by simp [exInputs]), exCovers _ (by simp [exInputs]),
    exCovers _ (by simp [exInputs]), fun q hq => exCovers _ (by
      cases wet
      · simp [exInputs] at hq
      · simp only [exInputs, if_true, Option.some.injEq] at hq
        subst hq
        simp)⟩

theorem exWithin : Within exOrg (lengthIn exCdm) exReq := ⟨by decide +kernel, by decide +kernel⟩

/-- Pressures decreasing along the axis; a request of the upper two levels. -/
example : ∃ L, altitude exCdm exHypReader (some "ap") ⟨"ap", "", "ps", "topo"⟩ (.ok ["lev"])
      (ideal ["lev"] fun σ => some (900 - 300 * (σ "lev" : ℝ))) (fun _ => none) exReq = .ok (some L) ∧
    L[2]? = some (some (Real.log (1000 / 300) * 250 * BF)) := by
  obtain ⟨L, e, hL⟩ := C84_altitude exCdm exHypReader "ap" _ _ "lev" 3 exOrg _
    (exGiven (fun k => some (900 - 300 * (k : ℝ))) false) exReg exReq exAsks exWithin exFits (fun _ => none) 900 300
    ⟨by simp [exInputs], by simp [exInputs]; norm_num, by norm_num, by norm_num⟩
  refine ⟨L, e, ?_⟩
  have h := hL.get (fun d => if d = "lev" then 1 else 0) (by decide)
  have hp : place (fun d => (exReg d).2) exOrg (fun d => if d = "lev" then 1 else 0) = 2 := by decide +kernel
  rw [hp] at h
  rw [h]
  have hs : (within exOrg fun d => (exReg d).1 + if d = "lev" then 1 else 0) "lev" = 2 := by decide +kernel
  obtain ⟨pk, h1, h2⟩ := C84_isothermal (exInputs (fun k => some (900 - 300 * (k : ℝ))) false) "lev" 3
    (decide ((300 : ℝ) < 900)) (within exOrg fun d => (exReg d).1 + if d = "lev" then 1 else 0) 0 1000 250
    (fun i => 900 - 300 * (i : ℝ)) rfl rfl (by norm_num) (by rw [hs]; norm_num)
    (by
      intro i hi
      rw [hs] at hi
      have hd : decide ((300 : ℝ) < 900) = true := by simp; norm_num
      rw [hd] at hi ⊢
      have hi : i < 3 := hi
      refine ⟨by simp [exInputs, level], ?_⟩
      have : (i : ℝ) ≤ 2 := by exact_mod_cast (by omega : i ≤ 2)
      linarith)
    (fun _ _ => rfl)
  rw [h2]
  have : pk = 300 := by
    have h1 : some (900 - 300 * (((within exOrg fun d => (exReg d).1 + if d = "lev" then 1 else 0) "lev" : ℕ) : ℝ)) = some pk := h1
    rw [hs] at h1
    have := Option.some.inj h1
    push_cast at this
    linarith
  rw [this]
  norm_num

/-- Pressures increasing along the axis, moist air. -/
example : ∃ L, altitude exCdm exHypReader (some "ap") ⟨"ap", "b", "ps", "topo"⟩ (.ok ["lev"])
      (ideal ["lev"] fun σ => some (300 + 300 * (σ "lev" : ℝ))) (fun _ => none) exReq = .ok (some L) ∧
    Values (fun d => (exReg d).2) exOrg (fun τ => altitudeAt (exInputs (fun k => some (300 + 300 * (k : ℝ))) true) "lev" 3 false
      (within exOrg fun d => (exReg d).1 + τ d)) L := by
  refine C84_altitude_by_columns exCdm exHypReader "ap" _ _ "lev" 3 exOrg _
    (exGiven (fun k => some (300 + 300 * (k : ℝ))) true) exReg exReq exAsks exWithin exFits (fun _ => none) [] [] rfl
    (by simp) false ⟨within exOrg fun d => (exReg d).1, 300, 900, fun d => ⟨fun h _ => ?_, fun h => ?_⟩, ?_, ?_, ?_, ?_⟩ ?_
  · have := (exFits d h).1
    simp [within, h]; omega
  · simp [within, h]
  · simp [exInputs]
  · simp [exInputs]; norm_num
  · norm_num
  · norm_num
  · rintro σ a b - ⟨h1, h2, -, -⟩
    simp [exInputs] at h1 h2
    simp; linarith

/-- No pressures at all. -/
example : altitude exCdm exHypReader (some "ap") ⟨"ap", "", "ps", "topo"⟩ (.ok ["lev"]) (ideal ["lev"] fun _ => none)
    (fun _ => none) exReq = .ub :=
  C84_no_pressure exCdm exHypReader "ap" _ _ "lev" 3 exOrg _ (exGiven (fun _ => none) false) exReg exReq exAsks exFits
    (fun _ => none) fun _ _ _ h => by simp [exInputs] at h

end Fimex.Hypsometric
