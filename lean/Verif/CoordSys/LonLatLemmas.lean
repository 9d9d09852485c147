import Verif.CoordSys.LonLatModel
import Verif.CoordSys.ChangeChain

/-! # One grid more with longitude and latitude -/

namespace Fimex.LonLat

open Cdm CoordSys Cf Change

variable {V CS Pr T α O : Type}

/-! ## Specification -/

/-- A variable as before, but for values that are read if it belongs to `A`. -/
def Loaded (read : String → Res (T × List α)) (A : String → Prop) (v w : Var (Pay T α O)) : Prop :=
  w = v ∨ (A v.name ∧ v.payload.data = none ∧ ∃ d, read v.name = .ok d ∧ w = { v with payload := { v.payload with data := some d } })

/-- The values of a variable: in memory, or read. -/
def Values (read : String → Res (T × List α)) (c : CDM (Pay T α O) V CS) (n : String) (xs : List α) : Prop :=
  ∃ v ∈ c.vars, v.name = n ∧ ∃ t, v.payload.data = some (t, xs) ∨ (v.payload.data = none ∧ read n = .ok (t, xs))

/-- A name not used for a variable or dimension. -/
def NewName {P : Type} (c : CDM P V CS) (n : String) : Prop := (∀ v ∈ c.vars, v.name ≠ n) ∧ ∀ d ∈ c.dims, d.name ≠ n

/-- A name, or that name with a number. -/
def Numbered (b n : String) : Prop := n = b ∨ ∃ j : ℕ, j < 99 ∧ n = b ++ toString j

/-- Two variables of a dataset are the longitude and latitude of a grid: shape, values and attributes. -/
structure LonLatVars (E : Ext V Pr T α) (x y : String) (lons lats : List α) (c : CDM (Pay T α O) V CS) (lon lat : String) : Prop where
  lonVar : ⟨lon, [x, y], ⟨E.double, some (E.double, lons), none⟩⟩ ∈ c.vars
  latVar : ⟨lat, [x, y], ⟨E.double, some (E.double, lats), none⟩⟩ ∈ c.vars
  lonAttrs : getAttributes c lon = [⟨"units", E.value "degree_east"⟩, ⟨"long_name", E.value "longitude"⟩, ⟨"standard_name", E.value "longitude"⟩]
  latAttrs : getAttributes c lat = [⟨"units", E.value "degree_north"⟩, ⟨"long_name", E.value "latitude"⟩, ⟨"standard_name", E.value "latitude"⟩]

/-- The attribute that names longitude and latitude, in place of what was there. -/
def pointing (E : Ext V Pr T α) (lon lat : String) (l : List (Attr V)) : List (Attr V) :=
  without ["coordinates"] l ++ [⟨"coordinates", E.value (lon ++ " " ++ lat)⟩]

/-- One grid more: `g` of the dataset `c` gets the longitude `lon` and the latitude `lat`. -/
structure Added (E : Ext V Pr T α) (read : String → Res (T × List α)) (g : Group Pr) (c c' : CDM (Pay T α O) V CS) (lon lat : String) : Prop where
  newLon : NewName c lon
  newLat : NewName c lat
  differ : lon ≠ lat
  plain : Plain c'
  dims : c'.dims = c.dims
  keeps : ∀ v ∈ c.vars, ∃ w ∈ c'.vars, Loaded read (fun n => n = g.x ∨ n = g.y) v w
  vars : ∀ w ∈ c'.vars, (∃ v ∈ c.vars, Loaded read (fun n => n = g.x ∨ n = g.y) v w) ∨ w.name = lon ∨ w.name = lat
  grid : ∃ xs ys lons lats, Values read c g.x xs ∧ Values read c g.y ys ∧ E.lonLat g.proj xs ys = .ok (lons, lats) ∧ LonLatVars E g.x g.y lons lats c' lon lat
  points : ∀ n ∈ g.vars, getAttributes c' n = pointing E lon lat (getAttributes c n)
  others : ∀ n, n ∉ g.vars → n ≠ lon → n ≠ lat → getAttributes c' n = getAttributes c n

/-! ## Lemmas -/

variable {E : Ext V Pr T α} {read : String → Res (T × List α)} {A : String → Prop} {k k' : CDM (Pay T α O) V CS}

theorem Loaded.name {v w : Var (Pay T α O)} (h : Loaded read A v w) : w.name = v.name := by
  rcases h with rfl | ⟨-, -, d, -, rfl⟩ <;> rfl

theorem Loaded.shape {v w : Var (Pay T α O)} (h : Loaded read A v w) : w.shape = v.shape := by
  rcases h with rfl | ⟨-, -, d, -, rfl⟩ <;> rfl

theorem Loaded.mono {B : String → Prop} (hab : ∀ n, A n → B n) {v w : Var (Pay T α O)} (h : Loaded read A v w) : Loaded read B v w := by
  rcases h with rfl | ⟨ha, h1, d, h2, h3⟩
  · exact .inl rfl
  · exact .inr ⟨hab _ ha, h1, d, h2, h3⟩

theorem Loaded.trans {u v w : Var (Pay T α O)} (h : Loaded read A u v) (h' : Loaded read A v w) : Loaded read A u w := by
  rcases h with rfl | ⟨ha, h1, d, h2, rfl⟩
  · exact h'
  · rcases h' with rfl | ⟨-, hn, -⟩
    · exact .inr ⟨ha, h1, d, h2, rfl⟩
    · cases hn

theorem loaded_inMemory {v w : Var (Pay T α O)} {d : T × List α} (h : Loaded read A v w) (hd : v.payload.data = some d) : w = v := by
  rcases h with rfl | ⟨-, hn, -⟩
  · rfl
  · rw [hd] at hn; cases hn

theorem values_loaded {n : String} {xs : List α} (hk : ∀ w ∈ k'.vars, w.name = n → ∃ v ∈ k.vars, Loaded read A v w) (h : Values read k' n xs) : Values read k n xs := by
  obtain ⟨w, hw, hn, t, h⟩ := h
  obtain ⟨v, hv, hl⟩ := hk w hw hn
  refine ⟨v, hv, hl.name.symm.trans hn, t, ?_⟩
  have hvn := hl.name.symm.trans hn
  rcases hl with rfl | ⟨-, h1, d, h2, rfl⟩
  · exact h
  · dsimp only at h
    rcases h with h | ⟨h, -⟩
    · cases h
      exact .inr ⟨h1, hvn ▸ h2⟩
    · cases h

theorem keepAxis_is [DecidableEq T] (hnd : (k.vars.map fun v : Var (Pay T α O) => v.name).Nodup) {n : String} (h : keepAxis read n k = .ok k') :
    ∃ u ∈ k.vars, ∃ d, u.name = n ∧ (u.payload.data = some d ∨ (u.payload.data = none ∧ read n = .ok d)) ∧
      Sets k { u with payload := { u.payload with data := some d } } k' := by
  unfold keepAxis at h
  obtain ⟨d, h1, h2⟩ := Res.bind_eq_ok.1 h
  obtain ⟨u, hu, hn, -, hs⟩ := setVarData_sets hnd h2
  refine ⟨u, hu, d, hn, ?_, hs⟩
  unfold getData at h1
  obtain ⟨v, hv, h1⟩ := Res.bind_eq_ok.1 h1
  obtain ⟨hvm, hvn⟩ := getVariable_some hv
  cases List.inj_on_of_nodup_map hnd hu hvm (hn.trans hvn.symm)
  cases hd : u.payload.data with
  | none =>
    rw [hd] at h1
    exact .inr ⟨rfl, h1⟩
  | some d' =>
    rw [hd] at h1
    cases h1
    exact .inl rfl

theorem keepAxis_loaded [DecidableEq T] (hnd : (k.vars.map fun v : Var (Pay T α O) => v.name).Nodup) {n : String} (h : keepAxis read n k = .ok k') :
    (k'.vars.map fun v : Var (Pay T α O) => v.name).Nodup ∧ k'.dims = k.dims ∧ (∀ m, k'.attrs m = k.attrs m) ∧
    (∀ v ∈ k.vars, ∃ w ∈ k'.vars, Loaded read (fun m => m = n) v w) ∧ (∀ w ∈ k'.vars, ∃ v ∈ k.vars, Loaded read (fun m => m = n) v w) ∧
    ∃ w ∈ k'.vars, w.name = n ∧ w.payload.data ≠ none := by
  obtain ⟨u, hu, d, hn, hd, hs⟩ := keepAxis_is hnd h
  have hl : Loaded read (fun m => m = n) u { u with payload := { u.payload with data := some d } } := by
    rcases hd with hd | ⟨hd, hr⟩
    · left
      obtain ⟨a, b, ⟨t, dd, o⟩⟩ := u
      dsimp only at hd ⊢
      rw [hd]
    · exact .inr ⟨hn, hd, d, hn ▸ hr, rfl⟩
  refine ⟨hs.nodup, hs.dims, hs.attrs, fun v hv => ?_, fun w hw => ?_, ⟨_, (hs.mem _).2 (.inr rfl), hn, by simp⟩⟩
  · by_cases e : v.name = n
    · cases List.inj_on_of_nodup_map hnd hu hv (hn.trans e.symm)
      exact ⟨_, (hs.mem _).2 (.inr rfl), hl⟩
    · exact ⟨v, (hs.mem _).2 (.inl ⟨hv, fun h => e (h.trans hn)⟩), .inl rfl⟩
  · rcases (hs.mem w).1 hw with ⟨hw, -⟩ | rfl
    · exact ⟨w, hw, .inl rfl⟩
    · exact ⟨u, hu, hl⟩

theorem generate_is {p : Pr} {x y lon lat : String} (hp : Plain k) (h : generateCoordinates E p x y lon lat k = .ok k') :
    lon ≠ lat ∧ ∃ vx vy tx ty xs ys lons lats, (vx ∈ k.vars ∧ vx.name = x) ∧ (vy ∈ k.vars ∧ vy.name = y) ∧
      vx.payload.data = some (tx, xs) ∧ vy.payload.data = some (ty, ys) ∧ E.lonLat p xs ys = .ok (lons, lats) ∧
      (k'.vars.map fun v : Var (Pay T α O) => v.name).Nodup ∧ k'.dims = k.dims ∧
      (∀ v, v ∈ k'.vars ↔ v ∈ k.vars ∨ v = ⟨lon, [x, y], ⟨E.double, some (E.double, lons), none⟩⟩ ∨ v = ⟨lat, [x, y], ⟨E.double, some (E.double, lats), none⟩⟩) ∧
      (∀ m, k'.attrs m ≠ none → m = lon ∨ m = lat ∨ k.attrs m ≠ none) ∧
      getAttributes k' lon = getAttributes k lon ++ [⟨"units", E.value "degree_east"⟩, ⟨"long_name", E.value "longitude"⟩, ⟨"standard_name", E.value "longitude"⟩] ∧
      getAttributes k' lat = getAttributes k lat ++ [⟨"units", E.value "degree_north"⟩, ⟨"long_name", E.value "latitude"⟩, ⟨"standard_name", E.value "latitude"⟩] ∧
      ∀ n, n ≠ lon → n ≠ lat → getAttributes k' n = getAttributes k n := by
  unfold generateCoordinates at h
  obtain ⟨xs, g1, h4⟩ := Res.bind_eq_ok.1 h
  obtain ⟨ys, g2, h4⟩ := Res.bind_eq_ok.1 h4
  obtain ⟨v, g3, h4⟩ := Res.bind_eq_ok.1 h4
  obtain ⟨k2, g4, h4⟩ := Res.bind_eq_ok.1 h4
  obtain ⟨k3, g5, h4⟩ := Res.bind_eq_ok.1 h4
  obtain ⟨k4, g6, g7⟩ := Res.bind_eq_ok.1 h4
  obtain ⟨vx, hvx, nx, tx, dx⟩ := axisValues_is g1
  obtain ⟨vy, hvy, ny, ty, dy⟩ := axisValues_is g2
  obtain ⟨f1, S1⟩ := addVariable_sets hp.vars g4
  obtain ⟨f2, S2⟩ := addVariable_sets S1.nodup g5
  obtain ⟨-, a1, a2, a3, a4⟩ := addAttributes_after g6
  obtain ⟨-, b1, b2, b3, b4⟩ := addAttributes_after g7
  have hne : lon ≠ lat := f2 _ ((S1.mem _).2 (.inr rfl))
  have gs : ∀ n, getAttributes k3 n = getAttributes k n := fun n => (S2.ga n).trans (S1.ga n)
  refine ⟨hne, vx, vy, tx, ty, xs, ys, v.1, v.2, ⟨hvx, nx⟩, ⟨hvy, ny⟩, dx, dy, g3, ?_, ?_, fun w => ?_, fun m hm => ?_, ?_, ?_, fun n hn1 hn2 => ?_⟩
  · rw [b1, a1]
    exact S2.nodup
  · rw [b2, a2, S2.dims, S1.dims]
  · rw [b1, a1, S2.mem, S1.mem]
    dsimp only
    constructor
    · rintro (⟨(⟨h, -⟩ | rfl), -⟩ | rfl)
      · exact .inl h
      · exact .inr (.inl rfl)
      · exact .inr (.inr rfl)
    · rintro (h | rfl | rfl)
      · exact .inl ⟨.inl ⟨h, f1 w h⟩, f2 w ((S1.mem w).2 (.inl ⟨h, f1 w h⟩))⟩
      · exact .inl ⟨.inr rfl, hne⟩
      · exact .inr rfl
  · by_cases e1 : m = lon
    · exact .inl e1
    by_cases e2 : m = lat
    · exact .inr (.inl e2)
    · rw [b4 m e2, a4 m e1, S2.attrs, S1.attrs] at hm
      exact .inr (.inr hm)
  · rw [ga_eq (b4 lon hne), a3, gs]
  · rw [b3, ga_eq (a4 lat (Ne.symm hne)), gs]
  · rw [ga_eq (b4 n hn2), ga_eq (a4 n hn1), gs]

theorem pointing_pointing (lon lat : String) (l : List (Attr V)) : pointing E lon lat (pointing E lon lat l) = pointing E lon lat l := by
  unfold pointing
  rw [without_append, without_without]
  simp [without]

theorem pointTo_is {P : Type} {lon lat : String} : ∀ {ns : List String} {c c' : CDM P V CS}, pointTo E lon lat ns c = .ok c' →
    c'.vars = c.vars ∧ c'.dims = c.dims ∧ (∀ n ∈ ns, n = globalNS ∨ ∃ v ∈ c.vars, v.name = n) ∧
    (∀ m, c'.attrs m ≠ none → m ∈ ns ∨ c.attrs m ≠ none) ∧
    (∀ n ∈ ns, getAttributes c' n = pointing E lon lat (getAttributes c n)) ∧ ∀ n, n ∉ ns → getAttributes c' n = getAttributes c n
  | [], c, c', h => by
    unfold pointTo at h
    cases h
    exact ⟨rfl, rfl, by simp, fun _ h => .inr h, by simp, fun _ _ => rfl⟩
  | a :: ns, c, c', h => by
    unfold pointTo at h
    obtain ⟨c1, h1, h2⟩ := Res.bind_eq_ok.1 h
    obtain ⟨own, I⟩ := addOrReplace_is h1
    have ga := ga_replace h1
    dsimp only at ga
    obtain ⟨e1, e2, e3, e4, e5, e6⟩ := pointTo_is h2
    refine ⟨e1.trans I.vars, e2.trans I.dims, fun n hn => ?_, fun m hm => ?_, fun n hn => ?_, fun n hn => ?_⟩
    · rcases List.mem_cons.1 hn with rfl | hn
      · exact own
      · have := e3 n hn
        rw [I.vars] at this
        exact this
    · rcases e4 m hm with h | h
      · exact .inl (List.mem_cons_of_mem _ h)
      · by_cases e : m = a
        · exact .inl (e ▸ List.mem_cons_self)
        · rw [I.attrs, if_neg e] at h
          exact .inr h
    · by_cases hm : n ∈ ns
      · rw [e5 n hm, ga]
        by_cases e : n = a
        · subst e
          rw [if_pos rfl]
          exact pointing_pointing lon lat _
        · rw [if_neg e]
      · rw [e6 n hm, ga]
        rcases List.mem_cons.1 hn with rfl | hn
        · rw [if_pos rfl]; rfl
        · exact absurd hn hm
    · rw [e6 n fun h => hn (List.mem_cons_of_mem _ h), ga, if_neg (by rintro rfl; exact hn List.mem_cons_self)]

theorem newName_of {P : Type} {c : CDM P V CS} {b n : String} (h : Names.findUniqueDimVarName (c.vars.map fun v : Var P => v.name) (c.dims.map fun d : Dim => d.name) b = .ok n) :
    NewName c n ∧ Numbered b n := by
  obtain ⟨h1, h2, h3⟩ := (Names.C45_fresh_dim_var_name _ _ b).1 n h
  refine ⟨⟨fun v hv e => h1 (e ▸ List.mem_map_of_mem hv), fun d hd e => h2 (e ▸ List.mem_map_of_mem hd)⟩, ?_⟩
  rcases h3 with rfl | ⟨-, j, hj, rfl, -⟩
  · exact .inl rfl
  · exact .inr ⟨j, hj, rfl⟩

theorem Numbered.start {b n : String} (h : Numbered b n) : ∃ r, n = b ++ r := by
  rcases h with rfl | ⟨j, -, rfl⟩
  · exact ⟨"", by simp⟩
  · exact ⟨_, rfl⟩

/-- Longitude and latitude are added to the dataset. -/
theorem addGrid_is [DecidableEq T] {g : Group Pr} (hp : Plain k) (hg : ∀ n ∈ g.vars, ∃ v ∈ k.vars, v.name = n) (h : addGrid E read g k = .ok k') :
    ∃ lon lat, Numbered "lon" lon ∧ Numbered "lat" lat ∧ Added E read g k k' lon lat := by
  unfold addGrid at h
  obtain ⟨lon, h1, h⟩ := Res.bind_eq_ok.1 h
  obtain ⟨lat, h2, h⟩ := Res.bind_eq_ok.1 h
  obtain ⟨k1, h3, h⟩ := Res.bind_eq_ok.1 h
  obtain ⟨k2, h4, h⟩ := Res.bind_eq_ok.1 h
  obtain ⟨k3, h5, h6⟩ := Res.bind_eq_ok.1 h
  obtain ⟨n1, p1⟩ := newName_of h1
  obtain ⟨n2, p2⟩ := newName_of h2
  obtain ⟨a1, a2, a3, a4, a5, -⟩ := keepAxis_loaded hp.vars h3
  obtain ⟨b1, b2, b3, b4, b5, -⟩ := keepAxis_loaded a1 h4
  have attrs : ∀ m, k2.attrs m = k.attrs m := fun m => (b3 m).trans (a3 m)
  have fwd : ∀ v ∈ k.vars, ∃ w ∈ k2.vars, Loaded read (fun n => n = g.x ∨ n = g.y) v w := by
    intro v hv
    obtain ⟨w, hw, hl⟩ := a4 v hv
    obtain ⟨u, hu, hl'⟩ := b4 w hw
    exact ⟨u, hu, (hl.mono fun n h => .inl h).trans (hl'.mono fun n h => .inr h)⟩
  have bwd : ∀ w ∈ k2.vars, ∃ v ∈ k.vars, Loaded read (fun n => n = g.x ∨ n = g.y) v w := by
    intro w hw
    obtain ⟨u, hu, hl'⟩ := b5 w hw
    obtain ⟨v, hv, hl⟩ := a5 u hu
    exact ⟨v, hv, (hl.mono fun n h => .inl h).trans (hl'.mono fun n h => .inr h)⟩
  have hp2 : Plain k2 := by
    refine ⟨b1, by rw [b2, a2]; exact hp.dims, fun n hn => ?_, fun v hv => ?_⟩
    · rw [attrs] at hn
      refine (hp.owned n hn).imp id ?_
      rintro ⟨v, hv, e⟩
      obtain ⟨w, hw, hl⟩ := fwd v hv
      exact ⟨w, hw, hl.name.trans e⟩
    · obtain ⟨u, hu, hl⟩ := bwd v hv
      rw [hl.name]
      exact hp.global u hu
  obtain ⟨c0, vx, vy, tx, ty, xs, ys, lons, lats, ⟨hvx, nx⟩, ⟨hvy, ny⟩, dx, dy, c1, c2, c3, c4, c5, c6, c7, c8⟩ := generate_is hp2 h5
  obtain ⟨d1, d2, -, d4, d5, d6⟩ := pointTo_is h6
  have ga : ∀ n, getAttributes k2 n = getAttributes k n := fun n => ga_eq (attrs n)
  have glob : ∀ b : String, b = "lon" ∨ b = "lat" → ∀ a n : String, n = b ++ a → n ≠ globalNS := by
    rintro b hb a n rfl e
    have := congrArg (fun s : String => s.toList.head?) e
    rw [String.toList_append] at this
    rcases hb with rfl | rfl <;> exact absurd this (by simp [globalNS])
  have gLon : lon ≠ globalNS := by obtain ⟨a, e⟩ := p1.start; exact glob _ (.inl rfl) a _ e
  have gLat : lat ≠ globalNS := by obtain ⟨a, e⟩ := p2.start; exact glob _ (.inr rfl) a _ e
  have noAttr : ∀ n, NewName k n → n ≠ globalNS → getAttributes k n = [] := by
    intro n hn hne
    exact Owned.ga (hp.owned : Owned k) hne hn.1
  have notIn : ∀ n, NewName k n → n ∉ g.vars := by
    intro n hn hm
    obtain ⟨v, hv, e⟩ := hg n hm
    exact hn.1 v hv e
  refine ⟨lon, lat, p1, p2, n1, n2, c0, ⟨by rw [d1]; exact c2, by rw [d2, c3, b2, a2]; exact hp.dims, fun n hn => ?_, fun v hv => ?_⟩, by rw [d2, c3, b2, a2], fun v hv => ?_,
    fun w hw => ?_, ⟨xs, ys, lons, lats, ?_, ?_, c1, ⟨?_, ?_, ?_, ?_⟩⟩, fun n hn => ?_, fun n hn hn1 hn2 => ?_⟩
  · rw [d1]
    rcases d4 n hn with h | h
    · obtain ⟨v, hv, e⟩ := hg n h
      obtain ⟨w, hw, hl⟩ := fwd v hv
      exact .inr ⟨w, (c4 w).2 (.inl hw), hl.name.trans e⟩
    · rcases c5 n h with rfl | rfl | h
      · exact .inr ⟨_, (c4 _).2 (.inr (.inl rfl)), rfl⟩
      · exact .inr ⟨_, (c4 _).2 (.inr (.inr rfl)), rfl⟩
      · refine (hp2.owned n h).imp id ?_
        rintro ⟨v, hv, e⟩
        exact ⟨v, (c4 v).2 (.inl hv), e⟩
  · rw [d1] at hv
    rcases (c4 v).1 hv with hv | rfl | rfl
    · exact hp2.global v hv
    · exact gLon
    · exact gLat
  · obtain ⟨w, hw, hl⟩ := fwd v hv
    exact ⟨w, by rw [d1]; exact (c4 w).2 (.inl hw), hl⟩
  · rw [d1] at hw
    rcases (c4 w).1 hw with hw | rfl | rfl
    · exact .inl (bwd w hw)
    · exact .inr (.inl rfl)
    · exact .inr (.inr rfl)
  · exact values_loaded (k' := k2) (fun w hw _ => bwd w hw) ⟨vx, hvx, nx, tx, .inl dx⟩
  · exact values_loaded (k' := k2) (fun w hw _ => bwd w hw) ⟨vy, hvy, ny, ty, .inl dy⟩
  · rw [d1]; exact (c4 _).2 (.inr (.inl rfl))
  · rw [d1]; exact (c4 _).2 (.inr (.inr rfl))
  · rw [d6 lon (notIn lon n1), c6, ga, noAttr lon n1 gLon]; rfl
  · rw [d6 lat (notIn lat n2), c7, ga, noAttr lat n2 gLat]; rfl
  · rw [d5 n hn, c8 n (fun e => notIn lon n1 (e ▸ hn)) (fun e => notIn lat n2 (e ▸ hn)), ga]
  · rw [d6 n hn, c8 n hn1 hn2, ga]

end Fimex.LonLat
