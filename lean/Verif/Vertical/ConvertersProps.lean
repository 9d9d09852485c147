import Verif.Vertical.ConvertersLemmas
import Verif.Vertical.FormulasProps

/-!
# Vertical converters (C83)
-/

namespace Fimex.Converters

open Fimex.SB Fimex.ArrayLoop Fimex.Shapes Fimex.Levels Fimex.Vertical

/-! ## Specification -/

/-- The length of a dimension, 1 if it is unknown. -/
def lengthIn (c : Cdm) (d : String) : ℕ := (c.dimLength d).getD 1

/-- The region `reg` (start and size) is not empty and lies in the dimensions. -/
def Fits (c : Cdm) (names : List String) (reg : String → ℕ × ℕ) : Prop :=
  ∀ d ∈ names, 0 < (reg d).2 ∧ (reg d).1 + (reg d).2 ≤ lengthIn c d

/-- `get` delivers, for every slice of an array with the given dimensions, the values of `f` in this slice: `f` gives
the value by the names of the indices, and the first dimension is the fastest. -/
structure Delivers {V : Type} (c : Cdm) (names : List String) (f : (String → ℕ) → V) (get : Source V) : Prop where
  nodup : names.Nodup
  only : ∀ σ τ : String → ℕ, (∀ d ∈ names, σ d = τ d) → f σ = f τ
  slice : ∀ (reg : String → ℕ × ℕ) (b : Builder), Asks names reg b → Fits c names reg →
    ∃ l, get b = .ok (some l) ∧ Values (fun d => (reg d).2) names (fun σ => f fun d => (reg d).1 + σ d) l

/-- The reader has the variable with these dimensions, and the values of `f` in the given unit. -/
structure Has {V : Type} (c : Cdm) (rd : Reader V) (v unit : String) (names : List String) (f : (String → ℕ) → V) : Prop where
  shape : c.shapeOf v = some names
  known : ∀ d ∈ names, ∃ n, c.dimLength d = some n ∧ 0 < n ∧ n < two64
  data : Delivers c names f (rd v unit)

/-- The shape of the converter has all of these dimensions but for those of length 1. -/
def Covers (c : Cdm) (org names : List String) : Prop := ∀ d ∈ names, d ∉ org → lengthIn c d = 1

/-- There is no dimension with which all of the shapes begin. -/
def NoCommon (shapes : List (List String)) : Prop := ∀ Q : List String, (∀ s ∈ shapes, Q <+: s) → Q = []

theorem beginning_nil {P : List String} {shapes : List (List String)} (h : Beginning P shapes) (hn : NoCommon shapes) :
    P = [] := hn P h.begins

/-! ## Reading -/

/-- The region of an array for a requested region: everything of the dimensions that are not in the request. -/
def regionOf (c : Cdm) (org : List String) (r : String → ℕ × ℕ) (d : String) : ℕ × ℕ :=
  if d ∈ org then r d else (0, lengthIn c d)

theorem asks_congr {names : List String} {reg reg' : String → ℕ × ℕ} {b : Builder} (h : Asks names reg b)
    (he : ∀ d ∈ names, reg d = reg' d) : Asks names reg' b :=
  ⟨h.dimPos, by rw [h.start]; exact List.map_congr_left fun d hd => by rw [he d hd],
    by rw [h.size]; exact List.map_congr_left fun d hd => by rw [he d hd]⟩

theorem adaptVar_ok {V : Type} {c : Cdm} {rd : Reader V} {v unit : String} {names : List String} {f : (String → ℕ) → V}
    (hv : Has c rd v unit names f) {org : List String} (ho : org.Nodup) {r : String → ℕ × ℕ} {sb : Builder}
    (hs : Asks org r sb) (hfit : ∀ d ∈ names, d ∈ org → (r d).1 + (r d).2 ≤ lengthIn c d) :
    ∃ b, adaptVar c v sb = .ok b ∧ Asks names (regionOf c org r) b := by
  have hl : ∀ d ∈ names, c.dimLength d = some (lengthIn c d) := by
    intro d hd
    obtain ⟨n, h, -⟩ := hv.known d hd
    simp [lengthIn, h]
  obtain ⟨b, e, h1, h2⟩ := builderFor_ok hv.shape hv.data.nodup hl
  obtain ⟨b', e', h3, -⟩ := (copy_ok hv.data.nodup ho hs h1 h2).1 (fun d hd hdo => by
    obtain ⟨n, h, -, hlt⟩ := hv.known d hd
    have hle := hfit d hd hdo
    have : lengthIn c d = n := by simp [lengthIn, h]
    rw [wadd_eq (by omega)]
    exact hle)
  exact ⟨b', by unfold adaptVar; rw [e]; exact e', h3⟩

theorem regionOf_fits {V : Type} {c : Cdm} {rd : Reader V} {v unit : String} {names : List String}
    {f : (String → ℕ) → V} (hv : Has c rd v unit names f) {org : List String} {r : String → ℕ × ℕ} (hf : Fits c org r) :
    Fits c names (regionOf c org r) := by
  intro d hd
  unfold regionOf
  split_ifs with hdo
  · exact hf d hdo
  · obtain ⟨n, h, hp, -⟩ := hv.known d hd
    simp [lengthIn, h, hp]

theorem readVar_ok {V : Type} {c : Cdm} {rd : Reader V} {v unit : String} {names : List String} {f : (String → ℕ) → V}
    (hv : Has c rd v unit names f) {org : List String} (ho : org.Nodup) {r : String → ℕ × ℕ} {sb : Builder}
    (hs : Asks org r sb) (hf : Fits c org r) :
    ∃ l, readVar c rd v unit sb = .ok ⟨full (fun d => (regionOf c org r d).2) names, some l⟩ ∧
      Values (fun d => (regionOf c org r d).2) names (fun σ => f fun d => (regionOf c org r d).1 + σ d) l := by
  obtain ⟨b, e, hb⟩ := adaptVar_ok hv ho hs fun d _ hdo => (hf d hdo).2
  have hfit := regionOf_fits hv hf
  obtain ⟨b', e', hb'⟩ := adaptVar_ok hv hv.data.nodup hb fun d hd _ => (hfit d hd).2
  have hb'' := asks_congr (reg' := regionOf c org r) hb' fun d hd => by
    rw [show regionOf c names (regionOf c org r) d = if d ∈ names then regionOf c org r d else _ from rfl, if_pos hd]
  obtain ⟨l, el, hl⟩ := hv.data.slice _ b' hb'' hfit
  refine ⟨l, ?_, hl⟩
  unfold readVar
  rw [e, Res.ok_bind, sliceDims_ok hv.data.nodup hb fun d hd => (hfit d hd).1, Res.ok_bind, e', Res.ok_bind, el]
  rfl

theorem readConverter_ok {V : Type} {c : Cdm} {names : List String} {f : (String → ℕ) → V} {get : Source V}
    (hv : Delivers c names f get) (hl : ∀ d ∈ names, 0 < lengthIn c d ∧ lengthIn c d < two64) {org : List String}
    (ho : org.Nodup) {r : String → ℕ × ℕ} {sb : Builder} (hs : Asks org r sb) (hf : Fits c org r) :
    ∃ l, readConverter c (.ok names) get sb = .ok ⟨full (fun d => (regionOf c org r d).2) names, some l⟩ ∧
      Values (fun d => (regionOf c org r d).2) names (fun σ => f fun d => (regionOf c org r d).1 + σ d) l := by
  obtain ⟨b, e, h1, h2⟩ := createSliceBuilder_ok c hv.nodup
  obtain ⟨b', e', h3, -⟩ := (copy_ok hv.nodup ho hs h1 h2).1 (fun d hd hdo => by
    have hle : _ ≤ lengthIn c d := (hf d hdo).2
    have := (hl d hd).2
    rw [wadd_eq (by omega)]
    exact hle)
  have hfit : Fits c names (regionOf c org r) := by
    intro d hd
    unfold regionOf
    split_ifs with hdo
    · exact hf d hdo
    · simp [(hl d hd).1]
  have h3' : Asks names (regionOf c org r) b' := h3
  obtain ⟨l, el, hl⟩ := hv.slice _ b' h3' hfit
  refine ⟨l, ?_, hl⟩
  unfold readConverter adaptConverter
  rw [Res.ok_bind, e, Res.ok_bind, e', Res.ok_bind, sliceDims_ok hv.nodup h3' fun d hd => (hfit d hd).1, Res.ok_bind, el]
  rfl

/-! ## Readers -/

theorem Values.lens {V : Type} {len len' : String → ℕ} {names : List String} {f : (String → ℕ) → V} {l : List V}
    (h : Values len names f l) (he : ∀ d ∈ names, len d = len' d) : Values len' names f l := by
  refine ⟨by rw [h.length, List.map_congr_left he], fun σ hσ => ?_⟩
  have := h.get σ fun d hd => he d hd ▸ hσ d hd
  unfold place at this ⊢
  rwa [List.map_congr_left he] at this

theorem Values.vals {V : Type} {len : String → ℕ} {names : List String} {f f' : (String → ℕ) → V} {l : List V}
    (h : Values len names f l) (he : ∀ σ, (∀ d ∈ names, σ d < len d) → f σ = f' σ) : Values len names f' l :=
  ⟨h.length, fun σ hσ => by rw [h.get σ hσ, he σ hσ]⟩

/-- The values of `f` in a region exist as an array. -/
theorem values_exist {V : Type} (len : String → ℕ) (names : List String) (f : (String → ℕ) → V) (x : V)
    (hf : ∀ σ τ : String → ℕ, (∀ d ∈ names, σ d = τ d) → f σ = f τ) : ∃ l, Values len names f l := by
  classical
  refine ⟨(List.range (names.map len).prod).map fun i =>
    if h : ∃ σ : String → ℕ, (∀ d ∈ names, σ d < len d) ∧ place len names σ = i then f h.choose else x, by simp, ?_⟩
  intro σ hσ
  rw [List.getElem?_map, List.getElem?_range (place_lt hσ), Option.map_some]
  have h : ∃ τ : String → ℕ, (∀ d ∈ names, τ d < len d) ∧ place len names τ = place len names σ := ⟨σ, hσ, rfl⟩
  rw [dif_pos h]
  congr 1
  exact hf _ _ fun d hd => place_inj h.choose_spec.1 hσ h.choose_spec.2 d hd

open Classical in
/-- A reader that delivers the values of `f`, and raises an exception for other requests. -/
noncomputable def ideal {V : Type} (names : List String) (f : (String → ℕ) → V) : Source V := fun b =>
  if h : ∃ reg l, Asks names reg b ∧ Values (fun d => (reg d).2) names (fun σ => f fun d => (reg d).1 + σ d) l then
    .ok (some h.choose_spec.choose)
  else .throws

theorem ideal_delivers {V : Type} (c : Cdm) {names : List String} {f : (String → ℕ) → V} (hn : names.Nodup)
    (hf : ∀ σ τ : String → ℕ, (∀ d ∈ names, σ d = τ d) → f σ = f τ) : Delivers c names f (ideal names f) := by
  refine ⟨hn, hf, fun reg b hb _ => ?_⟩
  obtain ⟨l, hl⟩ := values_exist (fun d => (reg d).2) names (fun σ => f fun d => (reg d).1 + σ d)
    (f fun _ => 0) fun σ τ h => hf _ _ fun d hd => by rw [h d hd]
  have h : ∃ reg l, Asks names reg b ∧ Values (fun d => (reg d).2) names (fun σ => f fun d => (reg d).1 + σ d) l :=
    ⟨reg, l, hb, hl⟩
  refine ⟨h.choose_spec.choose, by unfold ideal; rw [dif_pos h], ?_⟩
  obtain ⟨k1, k2⟩ := h.choose_spec.choose_spec
  have h1 : ∀ d ∈ names, (h.choose d).1 = (reg d).1 := by
    have := k1.start.symm.trans hb.start
    exact fun d hd => List.map_inj_left.1 this d hd
  have h2 : ∀ d ∈ names, (h.choose d).2 = (reg d).2 := by
    have := k1.size.symm.trans hb.size
    exact fun d hd => List.map_inj_left.1 this d hd
  exact (k2.lens h2).vals fun σ _ => hf _ _ fun d hd => by rw [h1 d hd]

/-! ## The general statement -/

/-- An array of a converter: its dimensions and the values by the names of the indices. -/
structure Field (V : Type) where
  names : List String
  val : (String → ℕ) → V

/-- The lengths used in the loop; the arrays have only dimensions of the request and of length 1. -/
def loopLen (org : List String) (r : String → ℕ × ℕ) (d : String) : ℕ := if d ∈ org then (r d).2 else 1

theorem regionOf_len {c : Cdm} {org names : List String} {r : String → ℕ × ℕ} (hc : Covers c org names) :
    ∀ d ∈ names, (regionOf c org r d).2 = loopLen org r d := by
  intro d hd
  unfold regionOf loopLen
  split_ifs with h
  · rfl
  · exact hc d hd h

/-- What was read of an array. -/
def ReadOf {V : Type} (c : Cdm) (org : List String) (r : String → ℕ × ℕ) (a : Field V) (l : List V) : Prop :=
  Values (fun d => (regionOf c org r d).2) a.names (fun σ => a.val fun d => (regionOf c org r d).1 + σ d) l

/-- The first dimensions at the beginning of the slice. -/
def atStart (P : List String) (r : String → ℕ × ℕ) (σ : String → ℕ) (d : String) : ℕ := if d ∈ P then (r d).1 else σ d

/-- **C83** (the loop of a converter, exactly). With the arrays read for a request `r`, the loop computes for every
index in the request the function of the values there; but the arguments that are passed as a number (role `false`)
are taken at the beginning of the slice in all dimensions that are the beginning `P` of the shapes of all arrays. -/
theorem C83_converter_loop {V : Type} (c : Cdm) (org : List String) (ho : org.Nodup) (r : String → ℕ × ℕ) (sb : Builder)
    (hs : Asks org r sb) (hf : Fits c org r) (before after : List (Field V × List V))
    (hin : ∀ a ∈ before ++ after, a.1.names.Nodup ∧ ReadOf c org r a.1 a.2 ∧ Covers c org a.1.names) (each : Bool)
    (roles : List Bool) (hroles : roles.length = (before ++ after).length) (f : List V → V)
    (call : ℕ → List (List V) → Res (List V)) (hcall : ∀ n, 0 < n → (each = true → n = 1) → CallOK roles f call n) (junk : ℕ → V) :
    ∃ (L : List V) (P : List String),
      fill (before.map fun a => (full (fun d => (regionOf c org r d).2) a.1.names, a.2))
        (after.map fun a => (full (fun d => (regionOf c org r d).2) a.1.names, a.2)) each call junk sb = .ok L ∧
      (each = true → P = []) ∧
      (each = false → Beginning P (before.map (fun a => a.1.names) ++ org :: after.map (fun a => a.1.names))) ∧
      Values (fun d => (r d).2) org (fun τ => f (List.zipWith (fun a (role : Bool) => a.1.val (within org
        (if role then fun d => (r d).1 + τ d else atStart P r fun d => (r d).1 + τ d))) (before ++ after) roles)) L := by
  let tr : Field V × List V → In V := fun a => ⟨a.1.names, a.2, fun σ => a.1.val fun d => (regionOf c org r d).1 + σ d⟩
  have hlen : ∀ d ∈ org, loopLen org r d = (r d).2 := fun d hd => if_pos hd
  have hpos : ∀ d, 0 < loopLen org r d := by
    intro d
    unfold loopLen
    split_ifs with h
    · exact (hf d h).1
    · exact Nat.one_pos
  have htr : ∀ l : List (Field V × List V), (∀ a ∈ l, Covers c org a.1.names) →
      (l.map tr).map (fun a => (full (loopLen org r) a.names, a.data)) =
      l.map fun a => (full (fun d => (regionOf c org r d).2) a.1.names, a.2) := by
    intro l hl
    rw [List.map_map]
    refine List.map_congr_left fun a ha => ?_
    dsimp only [Function.comp_apply, tr]
    rw [full_congr fun d hd => (regionOf_len (hl a ha) d hd)]
  obtain ⟨L, P, e, h1, h2, h3⟩ := fill_ok hs ho hlen hpos (before.map tr) (after.map tr) (by
    intro a ha
    rw [← List.map_append] at ha
    obtain ⟨a, ha', rfl⟩ := List.mem_map.1 ha
    obtain ⟨k1, k2, k3⟩ := hin a ha'
    exact ⟨k1, Values.lens k2 (regionOf_len k3), fun d _ hd => if_neg hd⟩) each roles (by simpa using hroles) f call hcall
    junk
  rw [htr before fun a ha => (hin a (List.mem_append_left _ ha)).2.2,
    htr after fun a ha => (hin a (List.mem_append_right _ ha)).2.2] at e
  have hn : ∀ l : List (Field V × List V), (l.map tr).map In.names = l.map fun a => a.1.names := by
    intro l; rw [List.map_map]; rfl
  rw [hn, hn] at h2
  refine ⟨L, P, e, h1, h2, ?_⟩
  have hPorg : ∀ d ∈ P, d ∈ org := by
    cases each with
    | true => rw [h1 rfl]; simp
    | false => exact fun d hd => ((h2 rfl).begins org (by simp)).subset hd
  refine (h3.lens hlen).vals fun τ hτ => ?_
  congr 1
  rw [← List.map_append, List.zipWith_map_left]
  congr 1
  funext a role
  dsimp only [tr]
  congr 1
  funext d
  unfold within atStart zeroed regionOf
  cases role with
  | true =>
    by_cases h : d ∈ org
    · simp [h]
    · simp [h]
  | false =>
    by_cases h : d ∈ org
    · by_cases h' : d ∈ P
      · simp [h, h']
      · simp [h, h']
    · have h' : d ∉ P := fun h' => h (hPorg d h')
      simp [h, h']

/-! ## The calls -/

theorem readAt_some {α : Type} {l : List α} {i : ℕ} {x : α} (h : l[i]? = some x) : readAt l i = .ok x := by
  simp [readAt, h]

theorem two_args {roles : List Bool} {r0 r1 : Bool} (hr : roles = [r0, r1]) {n : ℕ} {x y : List ℝ} {vals : ℕ → List ℝ}
    (hv : ∀ i, i < n → (vals i).length = roles.length ∧ ∀ j, j < roles.length →
      (([x, y] : List (List ℝ)).getD j [])[if roles.getD j false then i else 0]? = (vals i)[j]?) :
    ∀ i, i < n → ∃ p a, vals i = [p, a] ∧ x[if r0 then i else 0]? = some p ∧ y[if r1 then i else 0]? = some a := by
  subst hr
  intro i hi
  obtain ⟨hl, hj⟩ := hv i hi
  obtain ⟨p, a, e⟩ := List.length_eq_two.1 hl
  have h0 := hj 0 (by simp)
  have h1 := hj 1 (by simp)
  rw [e] at h0 h1
  exact ⟨p, a, e, h0, h1⟩

theorem three_args {roles : List Bool} {r0 r1 r2 : Bool} (hr : roles = [r0, r1, r2]) {n : ℕ} {x y z : List ℝ}
    {vals : ℕ → List ℝ}
    (hv : ∀ i, i < n → (vals i).length = roles.length ∧ ∀ j, j < roles.length →
      (([x, y, z] : List (List ℝ)).getD j [])[if roles.getD j false then i else 0]? = (vals i)[j]?) :
    ∀ i, i < n → ∃ p a b, vals i = [p, a, b] ∧ x[if r0 then i else 0]? = some p ∧ y[if r1 then i else 0]? = some a ∧
      z[if r2 then i else 0]? = some b := by
  subst hr
  intro i hi
  obtain ⟨hl, hj⟩ := hv i hi
  obtain ⟨p, a, b, e⟩ := List.length_eq_three.1 hl
  have h0 := hj 0 (by simp)
  have h1 := hj 1 (by simp)
  have h2 := hj 2 (by simp)
  rw [e] at h0 h1 h2
  exact ⟨p, a, b, e, h0, h1, h2⟩

theorem apCall_ok (n : ℕ) (hn : 0 < n) :
    CallOK [false, true, true] (fun l => l.getD 1 0 + l.getD 2 0 * l.getD 0 0) apCall n := by
  intro ts vals hts hv
  obtain ⟨x, y, z, rfl⟩ := List.length_eq_three.1 hts
  have key := three_args rfl hv
  obtain ⟨p, -, -, -, hx, -⟩ := key 0 hn
  rw [apCall, readAt_some (show x[0]? = some p from hx), Res.ok_bind]
  refine mapM_range_all n _ _ fun i hi => ?_
  obtain ⟨p', a, b, e, hx', ha, hb⟩ := key i hi
  obtain rfl : p = p' := by simpa using hx.symm.trans hx'
  rw [readAt_some (show y[i]? = some a from ha), readAt_some (show z[i]? = some b from hb)]
  simp [e]

theorem sigmaP0Call_ok (p0 : ℝ) (n : ℕ) (hn : 0 < n) :
    CallOK [false, true, true] (fun l => l.getD 1 0 * p0 + l.getD 2 0 * l.getD 0 0) (sigmaP0Call p0) n := by
  intro ts vals hts hv
  obtain ⟨x, y, z, rfl⟩ := List.length_eq_three.1 hts
  have key := three_args rfl hv
  obtain ⟨p, -, -, -, hx, -⟩ := key 0 hn
  rw [sigmaP0Call, readAt_some (show x[0]? = some p from hx), Res.ok_bind]
  refine mapM_range_all n _ _ fun i hi => ?_
  obtain ⟨p', a, b, e, hx', ha, hb⟩ := key i hi
  obtain rfl : p = p' := by simpa using hx.symm.trans hx'
  rw [readAt_some (show y[i]? = some a from ha), readAt_some (show z[i]? = some b from hb)]
  simp [e]

theorem sigmaCall_ok (n : ℕ) (hn : 0 < n) :
    CallOK [false, false, true] (fun l => l.getD 1 0 + l.getD 2 0 * (l.getD 0 0 - l.getD 1 0)) sigmaCall n := by
  intro ts vals hts hv
  obtain ⟨x, y, z, rfl⟩ := List.length_eq_three.1 hts
  have key := three_args rfl hv
  obtain ⟨p, t, -, -, hx, hy, -⟩ := key 0 hn
  rw [sigmaCall, readAt_some (show y[0]? = some t from hy), readAt_some (show x[0]? = some p from hx), Res.ok_bind, Res.ok_bind]
  refine mapM_range_all n _ _ fun i hi => ?_
  obtain ⟨p', t', b, e, hx', hy', hb⟩ := key i hi
  obtain rfl : p = p' := by simpa using hx.symm.trans hx'
  obtain rfl : t = t' := by simpa using hy.symm.trans hy'
  rw [readAt_some (show z[i]? = some b from hb)]
  simp [e]

theorem lnCall_ok (n : ℕ) (hn : 0 < n) :
    CallOK [false, true] (fun l => l.getD 0 0 * Real.exp (-l.getD 1 0)) lnCall n := by
  intro ts vals hts hv
  obtain ⟨x, y, rfl⟩ := List.length_eq_two.1 hts
  have key := two_args rfl hv
  obtain ⟨p, -, -, hx, -⟩ := key 0 hn
  rw [lnCall, readAt_some (show x[0]? = some p from hx), Res.ok_bind]
  refine mapM_range_all n _ _ fun i hi => ?_
  obtain ⟨p', a, e, hx', ha⟩ := key i hi
  obtain rfl : p = p' := by simpa using hx.symm.trans hx'
  rw [readAt_some (show y[i]? = some a from ha)]
  simp [e]

theorem heightCall_ok (n : ℕ) (hn : 0 < n) :
    CallOK [false, true, true] (fun l => l.getD 2 0 + l.getD 1 0 * l.getD 0 0) heightCall n := by
  intro ts vals hts hv
  obtain ⟨x, y, z, rfl⟩ := List.length_eq_three.1 hts
  have key := three_args rfl hv
  obtain ⟨p, -, -, -, hx, -⟩ := key 0 hn
  rw [heightCall, readAt_some (show x[0]? = some p from hx), Res.ok_bind]
  refine mapM_range_all n _ _ fun i hi => ?_
  obtain ⟨p', a, b, e, hx', ha, hb⟩ := key i hi
  obtain rfl : p = p' := by simpa using hx.symm.trans hx'
  rw [readAt_some (show z[i]? = some b from hb), readAt_some (show y[i]? = some a from ha)]
  simp [e]

theorem oceanCall_ok {func : ℕ → ℝ → ℝ → ℝ → List ℝ → List ℝ → Res (List ℝ)} {g : ℝ → ℝ → ℝ → ℝ → ℝ → ℝ}
    (hfunc : ∀ n h hc e s C, func n h hc e s C = loop2 n (g h hc e) s C) (hc : ℝ) (n : ℕ) (hn : 0 < n) :
    CallOK [true, true, false] (fun l => g (l.getD 2 0) hc 0 (l.getD 0 0) (l.getD 1 0)) (oceanCall func hc) n := by
  intro ts vals hts hv
  obtain ⟨x, y, z, rfl⟩ := List.length_eq_three.1 hts
  have key := three_args rfl hv
  obtain ⟨-, -, h, -, -, -, hz⟩ := key 0 hn
  rw [oceanCall, readAt_some (show z[0]? = some h from hz), Res.ok_bind, hfunc]
  refine mapM_range_all n _ _ fun i hi => ?_
  obtain ⟨a, b, h', e, ha, hb, hz'⟩ := key i hi
  obtain rfl : h = h' := by simpa using hz.symm.trans hz'
  rw [readAt_some (show x[i]? = some a from ha), readAt_some (show y[i]? = some b from hb)]
  simp [e]

theorem oceanCall_ok4 {func : ℕ → ℝ → ℝ → ℝ → List ℝ → List ℝ → Res (List ℝ)} {g : ℝ → ℝ → ℝ → ℝ → ℝ → ℝ}
    (hfunc : ∀ n h hc e s C, func n h hc e s C = loop2 n (g h hc e) s C) (hc : ℝ) (n : ℕ) (hn : 0 < n) :
    CallOK [true, true, false, false] (fun l => g (l.getD 2 0) hc (l.getD 3 0) (l.getD 0 0) (l.getD 1 0))
      (oceanCall func hc) n := by
  intro ts vals hts hv
  obtain ⟨x, ts, rfl⟩ := List.exists_cons_of_length_eq_add_one hts
  obtain ⟨y, z, w, rfl⟩ := List.length_eq_three.1 (by simpa using hts)
  have key : ∀ i, i < n → ∃ a b h e, vals i = [a, b, h, e] ∧ x[i]? = some a ∧ y[i]? = some b ∧ z[0]? = some h ∧
      w[0]? = some e := by
    intro i hi
    obtain ⟨hl, hj⟩ := hv i hi
    obtain ⟨a, m, em⟩ := List.exists_cons_of_length_eq_add_one hl
    obtain ⟨b, h, e, rfl⟩ := List.length_eq_three.1 (by simpa [em] using hl)
    have h0 := hj 0 (by simp)
    have h1 := hj 1 (by simp)
    have h2 := hj 2 (by simp)
    have h3 := hj 3 (by simp)
    rw [em] at h0 h1 h2 h3
    exact ⟨a, b, h, e, em, h0, h1, h2, h3⟩
  obtain ⟨-, -, h, e, -, -, -, hz, hw⟩ := key 0 hn
  rw [oceanCall, readAt_some hw, readAt_some hz, Res.ok_bind, Res.ok_bind, hfunc]
  refine mapM_range_all n _ _ fun i hi => ?_
  obtain ⟨a, b, h', e', em, ha, hb, hz', hw'⟩ := key i hi
  obtain rfl : h = h' := by simpa using hz.symm.trans hz'
  obtain rfl : e = e' := by simpa using hw.symm.trans hw'
  rw [readAt_some ha, readAt_some hb]
  simp [em]

theorem topoCall_ok (factor : ℝ) :
    CallOK [false, false] (fun l => l.getD 1 0 + factor * l.getD 0 0) (topoCall factor) 1 := by
  intro ts vals hts hv
  obtain ⟨x, y, rfl⟩ := List.length_eq_two.1 hts
  obtain ⟨p, a, e, hx, ha⟩ := two_args rfl hv 0 Nat.one_pos
  rw [topoCall, readAt_some (show y[0]? = some a from ha), readAt_some (show x[0]? = some p from hx)]
  simp [e]

/-! ## The converters -/

theorem atStart_nil (r : String → ℕ × ℕ) (σ : String → ℕ) : atStart [] r σ = σ := by
  funext d; simp [atStart]

theorem within_only {org : List String} {σ τ : String → ℕ} (h : ∀ d ∈ org, σ d = τ d) : within org σ = within org τ := by
  funext d
  unfold within
  split_ifs with hd
  · exact h d hd
  · rfl

/-- Three variables. -/
theorem three_read {c : Cdm} {rd : Reader ℝ} {v1 v2 v3 u1 u2 u3 : String} {s1 s2 s3 org : List String}
    {f1 f2 f3 : (String → ℕ) → ℝ} (h1 : Has c rd v1 u1 s1 f1) (h2 : Has c rd v2 u2 s2 f2) (h3 : Has c rd v3 u3 s3 f3)
    (ho : org.Nodup) (c1 : Covers c org s1) (c2 : Covers c org s2) (c3 : Covers c org s3) {r : String → ℕ × ℕ}
    {req : Builder} (hs : Asks org r req) (hf : Fits c org r) (r1 r2 r3 : Bool) (f : List ℝ → ℝ)
    (call : ℕ → List (List ℝ) → Res (List ℝ)) (hcall : ∀ n, 0 < n → CallOK [r1, r2, r3] f call n) (junk : ℕ → ℝ) :
    ∃ (d1 d2 d3 : Dims) (l1 l2 l3 L : List ℝ) (P : List String), readVar c rd v1 u1 req = .ok ⟨d1, some l1⟩ ∧
      readVar c rd v2 u2 req = .ok ⟨d2, some l2⟩ ∧ readVar c rd v3 u3 req = .ok ⟨d3, some l3⟩ ∧
      fill [(d1, l1), (d2, l2), (d3, l3)] [] false call junk req = .ok L ∧ Beginning P [s1, s2, s3, org] ∧
      Values (fun d => (r d).2) org (fun τ =>
        f [f1 (within org (if r1 then fun d => (r d).1 + τ d else atStart P r fun d => (r d).1 + τ d)),
          f2 (within org (if r2 then fun d => (r d).1 + τ d else atStart P r fun d => (r d).1 + τ d)),
          f3 (within org (if r3 then fun d => (r d).1 + τ d else atStart P r fun d => (r d).1 + τ d))]) L := by
  obtain ⟨l1, e1, v1⟩ := readVar_ok h1 ho hs hf
  obtain ⟨l2, e2, v2⟩ := readVar_ok h2 ho hs hf
  obtain ⟨l3, e3, v3⟩ := readVar_ok h3 ho hs hf
  obtain ⟨L, P, e, -, hP, hL⟩ := C83_converter_loop c org ho r req hs hf
    [(⟨s1, f1⟩, l1), (⟨s2, f2⟩, l2), (⟨s3, f3⟩, l3)] [] (by
      intro a ha
      simp only [List.append_nil, List.mem_cons, List.not_mem_nil, or_false] at ha
      rcases ha with rfl | rfl | rfl
      · exact ⟨h1.data.nodup, v1, c1⟩
      · exact ⟨h2.data.nodup, v2, c2⟩
      · exact ⟨h3.data.nodup, v3, c3⟩) false [r1, r2, r3] rfl f call (fun n hn _ => hcall n hn) junk
  exact ⟨_, _, _, l1, l2, l3, L, P, e1, e2, e3, e, hP rfl, hL⟩

/-- Two variables. -/
theorem two_read {c : Cdm} {rd : Reader ℝ} {v1 v2 u1 u2 : String} {s1 s2 org : List String}
    {f1 f2 : (String → ℕ) → ℝ} (h1 : Has c rd v1 u1 s1 f1) (h2 : Has c rd v2 u2 s2 f2)
    (ho : org.Nodup) (c1 : Covers c org s1) (c2 : Covers c org s2) {r : String → ℕ × ℕ}
    {req : Builder} (hs : Asks org r req) (hf : Fits c org r) (r1 r2 : Bool) (f : List ℝ → ℝ)
    (call : ℕ → List (List ℝ) → Res (List ℝ)) (hcall : ∀ n, 0 < n → CallOK [r1, r2] f call n) (junk : ℕ → ℝ) :
    ∃ (d1 d2 : Dims) (l1 l2 L : List ℝ) (P : List String), readVar c rd v1 u1 req = .ok ⟨d1, some l1⟩ ∧
      readVar c rd v2 u2 req = .ok ⟨d2, some l2⟩ ∧
      fill [(d1, l1), (d2, l2)] [] false call junk req = .ok L ∧ Beginning P [s1, s2, org] ∧
      Values (fun d => (r d).2) org (fun τ =>
        f [f1 (within org (if r1 then fun d => (r d).1 + τ d else atStart P r fun d => (r d).1 + τ d)),
          f2 (within org (if r2 then fun d => (r d).1 + τ d else atStart P r fun d => (r d).1 + τ d))]) L := by
  obtain ⟨l1, e1, v1⟩ := readVar_ok h1 ho hs hf
  obtain ⟨l2, e2, v2⟩ := readVar_ok h2 ho hs hf
  obtain ⟨L, P, e, -, hP, hL⟩ := C83_converter_loop c org ho r req hs hf
    [(⟨s1, f1⟩, l1), (⟨s2, f2⟩, l2)] [] (by
      intro a ha
      simp only [List.append_nil, List.mem_cons, List.not_mem_nil, or_false] at ha
      rcases ha with rfl | rfl
      · exact ⟨h1.data.nodup, v1, c1⟩
      · exact ⟨h2.data.nodup, v2, c2⟩) false [r1, r2] rfl f call (fun n hn _ => hcall n hn) junk
  exact ⟨_, _, l1, l2, L, P, e1, e2, e, hP rfl, hL⟩

/-- **C83** (hybrid sigma pressure with `ap`). For every slice asked for, the converter delivers at every index
`ap + b * ps` of the values there (in hPa), if not all variables and the shape begin with the same dimension. -/
theorem C83_hybrid_sigma_ap (c : Cdm) (rd : Reader ℝ) (ps ap b : String) (sps sap sb org : List String)
    (fps fap fb : (String → ℕ) → ℝ) (hps : Has c rd ps "hPa" sps fps) (hap : Has c rd ap "hPa" sap fap)
    (hb : Has c rd b "" sb fb) (ho : org.Nodup) (cps : Covers c org sps) (cap : Covers c org sap) (cb : Covers c org sb)
    (hno : NoCommon [sps, sap, sb, org]) (junk : ℕ → ℝ) :
    Delivers c org (fun σ => fap (within org σ) + fb (within org σ) * fps (within org σ))
      (hybridSigmaAp c rd ps ap b junk) := by
  refine ⟨ho, fun σ τ h => by simp only [within_only h], fun r req hs hf => ?_⟩
  obtain ⟨d1, d2, d3, l1, l2, l3, L, P, e1, e2, e3, e, hP, hL⟩ :=
    three_read hps hap hb ho cps cap cb hs hf _ _ _ _ _ apCall_ok junk
  obtain rfl := beginning_nil hP hno
  refine ⟨L, ?_, hL.vals fun σ _ => by simp [atStart_nil]⟩
  simp only [hybridSigmaAp, e1, e2, e3, e, Res.ok_bind]

/-- **C83** (hybrid sigma pressure with `a` and `p0`): `a * p0 + b * ps`, with the first value that the reader has for
`p0` at the position 0 of the unlimited dimension, for all slices. -/
theorem C83_hybrid_sigma (c : Cdm) (rd : Reader ℝ) (rd0 : String → String → ℕ → Res (Option (List ℝ)))
    (ps a b p0 : String) (sps sa sb org : List String) (fps fa fb : (String → ℕ) → ℝ) (x : ℝ) (xs : List ℝ)
    (hps : Has c rd ps "hPa" sps fps) (ha : Has c rd a "" sa fa) (hb : Has c rd b "" sb fb)
    (hp0 : rd0 p0 "hPa" 0 = .ok (some (x :: xs))) (ho : org.Nodup) (cps : Covers c org sps) (ca : Covers c org sa)
    (cb : Covers c org sb) (hno : NoCommon [sps, sa, sb, org]) (junk : ℕ → ℝ) :
    Delivers c org (fun σ => fa (within org σ) * x + fb (within org σ) * fps (within org σ))
      (hybridSigma c rd rd0 ps a b p0 junk) := by
  refine ⟨ho, fun σ τ h => by simp only [within_only h], fun r req hs hf => ?_⟩
  obtain ⟨d1, d2, d3, l1, l2, l3, L, P, e1, e2, e3, e, hP, hL⟩ :=
    three_read hps ha hb ho cps ca cb hs hf _ _ _ _ _ (sigmaP0Call_ok x) junk
  obtain rfl := beginning_nil hP hno
  refine ⟨L, ?_, hL.vals fun σ _ => by simp [atStart_nil]⟩
  simp only [hybridSigma, e1, e2, e3, firstOf, hp0, e, Res.ok_bind]

/-- **C83** (sigma coordinates): `ptop + sigma * (ps - ptop)`. -/
theorem C83_sigma (c : Cdm) (rd : Reader ℝ) (ps ptop sg : String) (sps sptop ssg org : List String)
    (fps fptop fsg : (String → ℕ) → ℝ) (hps : Has c rd ps "hPa" sps fps) (hptop : Has c rd ptop "hPa" sptop fptop)
    (hsg : Has c rd sg "" ssg fsg) (ho : org.Nodup) (cps : Covers c org sps) (cptop : Covers c org sptop)
    (csg : Covers c org ssg) (hno : NoCommon [sps, sptop, ssg, org]) (junk : ℕ → ℝ) :
    Delivers c org (fun σ => fptop (within org σ) + fsg (within org σ) * (fps (within org σ) - fptop (within org σ)))
      (sigma c rd ps ptop sg junk) := by
  refine ⟨ho, fun σ τ h => by simp only [within_only h], fun r req hs hf => ?_⟩
  obtain ⟨d1, d2, d3, l1, l2, l3, L, P, e1, e2, e3, e, hP, hL⟩ :=
    three_read hps hptop hsg ho cps cptop csg hs hf _ _ _ _ _ sigmaCall_ok junk
  obtain rfl := beginning_nil hP hno
  refine ⟨L, ?_, hL.vals fun σ _ => by simp [atStart_nil]⟩
  simp only [sigma, e1, e2, e3, e, Res.ok_bind]

/-- **C83** (logarithmic pressure): `p0 * exp(-lev)`. -/
theorem C83_ln_pressure (c : Cdm) (rd : Reader ℝ) (p0 lev : String) (sp0 slev org : List String)
    (fp0 flev : (String → ℕ) → ℝ) (hp0 : Has c rd p0 "hPa" sp0 fp0) (hlev : Has c rd lev "" slev flev) (ho : org.Nodup)
    (cp0 : Covers c org sp0) (clev : Covers c org slev) (hno : NoCommon [sp0, slev, org]) (junk : ℕ → ℝ) :
    Delivers c org (fun σ => fp0 (within org σ) * Real.exp (-flev (within org σ))) (lnP c rd p0 lev junk) := by
  refine ⟨ho, fun σ τ h => by simp only [within_only h], fun r req hs hf => ?_⟩
  obtain ⟨d1, d2, l1, l2, L, P, e1, e2, e, hP, hL⟩ := two_read hp0 hlev ho cp0 clev hs hf _ _ _ _ lnCall_ok junk
  obtain rfl := beginning_nil hP hno
  refine ⟨L, ?_, hL.vals fun σ _ => by simp [atStart_nil]⟩
  simp only [lnP, e1, e2, e, Res.ok_bind]

/-- **C83** (hybrid height): `a + b * orog`. -/
theorem C83_hybrid_height (c : Cdm) (rd : Reader ℝ) (a b orog : String) (sa sb sorog org : List String)
    (fa fb forog : (String → ℕ) → ℝ) (ha : Has c rd a "m" sa fa) (hb : Has c rd b "" sb fb)
    (horog : Has c rd orog "m" sorog forog) (ho : org.Nodup) (ca : Covers c org sa) (cb : Covers c org sb)
    (corog : Covers c org sorog) (hno : NoCommon [sorog, sb, sa, org]) (junk : ℕ → ℝ) :
    Delivers c org (fun σ => fa (within org σ) + fb (within org σ) * forog (within org σ))
      (hybridAltitude c rd a b orog junk) := by
  refine ⟨ho, fun σ τ h => by simp only [within_only h], fun r req hs hf => ?_⟩
  obtain ⟨d1, d2, d3, l1, l2, l3, L, P, e1, e2, e3, e, hP, hL⟩ :=
    three_read horog hb ha ho corog cb ca hs hf _ _ _ _ _ heightCall_ok junk
  obtain rfl := beginning_nil hP hno
  refine ⟨L, ?_, hL.vals fun σ _ => by simp [atStart_nil]⟩
  simp only [hybridAltitude, e1, e2, e3, Option.getD_some, e, Res.ok_bind]

/-- **C83** (height above ground and altitude): the altitude plus or minus the topography (geopotential divided by
gravity), for all slices. Here every value is computed on its own, and nothing has to be said about the shapes. -/
theorem C83_altitude_height (c : Cdm) (rd : Reader ℝ) (topo stdName : String) (stopo salti org : List String)
    (ftopo falti : (String → ℕ) → ℝ) (get : Source ℝ) (add : Bool) (htopo : Has c rd topo (topoUnit stdName) stopo ftopo)
    (halti : Delivers c salti falti get) (hl : ∀ d ∈ salti, 0 < lengthIn c d ∧ lengthIn c d < two64) (ho : org.Nodup)
    (ctopo : Covers c org stopo) (calti : Covers c org salti) (junk : ℕ → ℝ) :
    Delivers c org (fun σ => falti (within org σ) + (if add then 1 else -1) *
        (if topoUnit stdName = "m" then ftopo (within org σ) else ftopo (within org σ) / 9.80665))
      (altitudeHeight c rd topo stdName (.ok salti) get add junk) := by
  refine ⟨ho, fun σ τ h => by simp only [within_only h], fun r req hs hf => ?_⟩
  obtain ⟨l1, e1, v1⟩ := readVar_ok htopo ho hs hf
  obtain ⟨l2, e2, v2⟩ := readConverter_ok halti hl ho hs hf
  obtain ⟨L, P, e, hP, -, hL⟩ := C83_converter_loop c org ho r req hs hf
    [(⟨stopo, ftopo⟩, l1), (⟨salti, falti⟩, l2)] [] (by
      intro a ha
      simp only [List.append_nil, List.mem_cons, List.not_mem_nil, or_false] at ha
      rcases ha with rfl | rfl
      · exact ⟨htopo.data.nodup, v1, ctopo⟩
      · exact ⟨halti.nodup, v2, calti⟩) true [false, false] rfl _ (topoCall (topoFactor stdName add))
      (fun n _ h => by rw [h rfl]; exact topoCall_ok _) junk
  obtain rfl := hP rfl
  refine ⟨L, ?_, hL.vals fun σ _ => ?_⟩
  · simp only [List.map_cons, List.map_nil] at e
    simp only [altitudeHeight, e1, e2, Res.ok_bind, e]
  · simp only [List.append_nil, List.zipWith_cons_cons, List.zipWith_nil_left, atStart_nil, Bool.false_eq_true, if_false,
      List.getD_cons_zero, List.getD_cons_succ]
    unfold topoFactor topoUnit
    by_cases hm : stdName = "surface_altitude" ∨ stdName = "altitude" ∨ stdName = "geopotential_height"
    · simp only [if_pos hm, if_true]
    · simp only [if_neg hm, show ¬ ("m^2/s^2" = "m") by decide, if_false]
      ring

theorem Values.neg {len : String → ℕ} {names : List String} {f : (String → ℕ) → ℝ} {l : List ℝ}
    (h : Values len names f l) (g : ℝ → ℝ) : Values len names (fun σ => g (f σ)) (l.map g) :=
  ⟨by rw [List.length_map, h.length], fun σ hσ => by rw [List.getElem?_map, h.get σ hσ]; rfl⟩

/-- The first value that was read. -/
theorem first_read {c : Cdm} {rd : Reader ℝ} {v unit : String} {names org : List String} {f : (String → ℕ) → ℝ}
    (hv : Has c rd v unit names f) (h1 : ∀ d ∈ names, lengthIn c d = 1) (ho : org.Nodup) {r : String → ℕ × ℕ}
    {req : Builder} (hs : Asks org r req) (hf : Fits c org r) :
    ∃ b l, adaptVar c v req = .ok b ∧ rd v unit b = .ok (some l) ∧ readAt l 0 = .ok (f fun _ => 0) := by
  obtain ⟨b, e, hb⟩ := adaptVar_ok hv ho hs fun d _ hd => (hf d hd).2
  have hfit := regionOf_fits hv hf
  obtain ⟨l, el, hl⟩ := hv.data.slice _ b hb hfit
  have hz : ∀ d ∈ names, (regionOf c org r d).1 = 0 := fun d hd => by
    have := hfit d hd
    rw [h1 d hd] at this
    omega
  have := hl.get (fun _ => 0) fun d hd => (hfit d hd).1
  have hp : place (fun d => (regionOf c org r d).2) names (fun _ => 0) = 0 := by
    have := place_lt (len := fun d => (regionOf c org r d).2) (σ := fun _ => 0) fun d hd => (hfit d hd).1
    have hone : (names.map fun d => (regionOf c org r d).2).prod = 1 := by
      rw [List.prod_eq_one]
      intro x hx
      obtain ⟨d, hd, rfl⟩ := List.mem_map.1 hx
      have := hfit d hd
      rw [h1 d hd] at this
      omega
    omega
  rw [hp] at this
  refine ⟨b, l, e, el, ?_⟩
  rw [readAt_some this, hv.data.only _ (fun _ => 0) fun d hd => by simp [hz d hd]]

/-- The variables of the ocean coordinate; without a name of `eta` the elevation is 0. -/
structure OceanHas (c : Cdm) (rd : Reader ℝ) (v : OceanVars) (org : List String) (fs fC fdepth feta : (String → ℕ) → ℝ)
    (hc : ℝ) : Prop where
  names : v.s ≠ "" ∧ v.C ≠ "" ∧ v.depth ≠ "" ∧ v.depthC ≠ ""
  vars : ∃ ss sC sdepth sdepthC, Has c rd v.s "" ss fs ∧ Has c rd v.C "" sC fC ∧ Has c rd v.depth "m" sdepth fdepth ∧
    Covers c org ss ∧ Covers c org sC ∧ Covers c org sdepth ∧
    (∃ fdepthC, Has c rd v.depthC "m" sdepthC fdepthC ∧ (∀ d ∈ sdepthC, lengthIn c d = 1) ∧ fdepthC (fun _ => 0) = hc) ∧
    ((v.eta = "" ∧ feta = (fun _ => 0) ∧ NoCommon [ss, sC, sdepth, org]) ∨
      (v.eta ≠ "" ∧ ∃ seta, Has c rd v.eta "m" seta feta ∧ Covers c org seta ∧ NoCommon [ss, sC, sdepth, org, seta]))

theorem ocean_ok (c : Cdm) (rd : Reader ℝ) (v : OceanVars) (org : List String) (fs fC fdepth feta : (String → ℕ) → ℝ)
    (hc : ℝ) (h : OceanHas c rd v org fs fC fdepth feta hc) (ho : org.Nodup)
    {func : ℕ → ℝ → ℝ → ℝ → List ℝ → List ℝ → Res (List ℝ)} {g : ℝ → ℝ → ℝ → ℝ → ℝ → ℝ}
    (hfunc : ∀ n h hc e s C, func n h hc e s C = loop2 n (g h hc e) s C) (junk : ℕ → ℝ) :
    Delivers c org (fun σ => -g (fdepth (within org σ)) hc (feta (within org σ)) (fs (within org σ)) (fC (within org σ)))
      (ocean c rd v func junk) := by
  refine ⟨ho, fun σ τ h => by simp only [within_only h], fun r req hs hf => ?_⟩
  obtain ⟨⟨n1, n2, n3, n4⟩, ss, sC, sd, sdc, hs1, hC, hd, cs, cC, cd, ⟨fdc, hdc, hone, rfl⟩, heta⟩ := h
  obtain ⟨bdc, ldc, edc, edc', edc''⟩ := first_read hdc hone ho hs hf
  have hcomp : v.complete = true := by simp [OceanVars.complete, n1, n2, n3, n4]
  obtain ⟨l1, e1, v1⟩ := readVar_ok hs1 ho hs hf
  obtain ⟨l2, e2, v2⟩ := readVar_ok hC ho hs hf
  obtain ⟨l3, e3, v3⟩ := readVar_ok hd ho hs hf
  rcases heta with ⟨he, rfl, hno⟩ | ⟨he, se, hse, ce, hno⟩
  · obtain ⟨L, P, e, -, hP, hL⟩ := C83_converter_loop c org ho r req hs hf
      [(⟨ss, fs⟩, l1), (⟨sC, fC⟩, l2), (⟨sd, fdepth⟩, l3)] [] (by
        intro a ha
        simp only [List.append_nil, List.mem_cons, List.not_mem_nil, or_false] at ha
        rcases ha with rfl | rfl | rfl
        · exact ⟨hs1.data.nodup, v1, cs⟩
        · exact ⟨hC.data.nodup, v2, cC⟩
        · exact ⟨hd.data.nodup, v3, cd⟩) false [true, true, false] rfl _ _
        (fun n hn _ => oceanCall_ok hfunc (fdc fun _ => 0) n hn) junk
    obtain rfl := beginning_nil (hP rfl) hno
    refine ⟨L.map fun z => -1 * z, ?_, (hL.neg _).vals fun σ _ => by simp [atStart_nil]⟩
    simp only [List.map_cons, List.map_nil] at e
    simp only [ocean, hcomp, Bool.true_eq_false, if_false, edc, edc', depthC, edc'', e1, e2, e3, readEta, if_pos he,
      Res.ok_bind, e]
  · obtain ⟨l4, e4, v4⟩ := readVar_ok hse ho hs hf
    obtain ⟨b4, a4, k4⟩ := adaptVar_ok hse ho hs fun d _ hdo => (hf d hdo).2
    have hfit4 := regionOf_fits hse hf
    obtain ⟨m4, em4, w4⟩ := hse.data.slice _ b4 k4 hfit4
    obtain ⟨L, P, e, -, hP, hL⟩ := C83_converter_loop c org ho r req hs hf
      [(⟨ss, fs⟩, l1), (⟨sC, fC⟩, l2), (⟨sd, fdepth⟩, l3)] [(⟨se, feta⟩, m4)] (by
        intro a ha
        simp only [List.cons_append, List.nil_append, List.mem_cons, List.not_mem_nil, or_false] at ha
        rcases ha with rfl | rfl | rfl | rfl
        · exact ⟨hs1.data.nodup, v1, cs⟩
        · exact ⟨hC.data.nodup, v2, cC⟩
        · exact ⟨hd.data.nodup, v3, cd⟩
        · exact ⟨hse.data.nodup, w4, ce⟩) false [true, true, false, false] rfl _ _
        (fun n hn _ => oceanCall_ok4 hfunc (fdc fun _ => 0) n hn) junk
    obtain rfl := beginning_nil (hP rfl) hno
    refine ⟨L.map fun z => -1 * z, ?_, (hL.neg _).vals fun σ _ => by simp [atStart_nil]⟩
    simp only [List.map_cons, List.map_nil] at e
    simp only [ocean, hcomp, Bool.true_eq_false, if_false, edc, edc', depthC, edc'', e1, e2, e3, readEta, if_neg he, a4,
      em4, sliceDims_ok hse.data.nodup k4 fun d hd => (hfit4 d hd).1, Res.ok_bind, e]

/-- **C83** (ocean s-coordinate, generic form 1): the depth, positive downwards, is `-(S + eta * (1 + S / depth))` with
`S = depth_c * s + (depth - depth_c) * C`, for all slices, if no depth is 0. -/
theorem C83_ocean_g1 (c : Cdm) (rd : Reader ℝ) (v : OceanVars) (org : List String) (fs fC fdepth feta : (String → ℕ) → ℝ)
    (hc : ℝ) (h : OceanHas c rd v org fs fC fdepth feta hc) (ho : org.Nodup) (_hd : ∀ σ, fdepth σ ≠ 0) (junk : ℕ → ℝ) :
    Delivers c org (fun σ => let S := hc * fs (within org σ) + (fdepth (within org σ) - hc) * fC (within org σ);
        -(S + feta (within org σ) * (1 + S / fdepth (within org σ)))) (ocean c rd v oceanG1 junk) := by
  have := ocean_ok c rd v org fs fC fdepth feta hc h ho (func := oceanG1)
    (g := fun h hc e s C => (hc * s + (h - hc) * C) + e * (1 + (hc * s + (h - hc) * C) * (1 / h)))
    (fun _ _ _ _ _ _ => rfl) junk
  simpa only [mul_one_div] using this

/-- **C83** (ocean s-coordinate, generic form 2): the depth is `-(eta + (eta + depth) * S)` with
`S = (depth_c * s + depth * C) / (depth + depth_c)`, for all slices, if the divisor is not 0. -/
theorem C83_ocean_g2 (c : Cdm) (rd : Reader ℝ) (v : OceanVars) (org : List String) (fs fC fdepth feta : (String → ℕ) → ℝ)
    (hc : ℝ) (h : OceanHas c rd v org fs fC fdepth feta hc) (ho : org.Nodup) (_hd : ∀ σ, fdepth σ + hc ≠ 0) (junk : ℕ → ℝ) :
    Delivers c org (fun σ => -(feta (within org σ) + (feta (within org σ) + fdepth (within org σ)) *
        ((hc * fs (within org σ) + fdepth (within org σ) * fC (within org σ)) / (fdepth (within org σ) + hc))))
      (ocean c rd v oceanG2 junk) := by
  have := ocean_ok c rd v org fs fC fdepth feta hc h ho (func := oceanG2)
    (g := fun h hc e s C => e + (e + h) * (1 / (h + hc) * (hc * s + h * C)))
    (fun _ _ _ _ _ _ => rfl) junk
  simpa only [one_div_mul_eq_div] using this

theorem loop1_map (f : ℝ → ℝ) (l : List ℝ) : loop1 l.length f l = .ok (l.map f) := by
  rw [loop1_ok _ _ _ le_rfl]
  congr 1
  apply List.ext_getElem
  · simp
  · intro i h1 h2
    simp at h1
    simp [h1]

/-- **C83** (standard atmosphere): pressure from altitude, element by element. -/
theorem C83_standard_pressure (c : Cdm) (names : List String) (f : (String → ℕ) → ℝ) (get : Source ℝ)
    (h : Delivers c names f get) :
    Delivers c names (fun σ => 1013.25 * Real.exp (-f σ / (BF * 288.15))) (standardPressure get) := by
  refine ⟨h.nodup, fun σ τ he => by rw [h.only σ τ he], fun r req hs hf => ?_⟩
  obtain ⟨l, e, hl⟩ := h.slice r req hs hf
  refine ⟨l.map fun h => 1013.25 * Real.exp (-1 / (BF * 288.15) * h), ?_, (hl.neg _).vals fun σ _ => ?_⟩
  · simp only [standardPressure, e, Res.ok_bind, barometricStandardPressure, barometricPressure, loop1_map]
  · congr 2
    ring

/-- **C83** (standard atmosphere): altitude from pressure, element by element. -/
theorem C83_standard_altitude (c : Cdm) (names : List String) (f : (String → ℕ) → ℝ) (get : Source ℝ)
    (h : Delivers c names f get) (_hp : ∀ σ, 0 < f σ) :
    Delivers c names (fun σ => -(BF * 288.15 * Real.log (f σ / 1013.25))) (standardAltitude get) := by
  refine ⟨h.nodup, fun σ τ he => by rw [h.only σ τ he], fun r req hs hf => ?_⟩
  obtain ⟨l, e, hl⟩ := h.slice r req hs hf
  refine ⟨l.map fun p => -BF * 288.15 * Real.log (p / 1013.25), ?_, (hl.neg _).vals fun σ _ => ?_⟩
  · simp only [standardAltitude, e, Res.ok_bind, barometricStandardAltitude, barometricHeight, loop1_map]
  · ring

/-- **C83** (composition): the standard pressure of the standard altitude is the pressure, for all slices. -/
theorem C83_standard_round_trip (c : Cdm) (names : List String) (f : (String → ℕ) → ℝ) (get : Source ℝ)
    (h : Delivers c names f get) (hp : ∀ σ, 0 < f σ) : Delivers c names f (standardPressure (standardAltitude get)) := by
  have := C83_standard_pressure c names _ _ (C83_standard_altitude c names f get h hp)
  refine ⟨this.nodup, h.only, fun r req hs hf => ?_⟩
  obtain ⟨l, e, hl⟩ := this.slice r req hs hf
  refine ⟨l, e, hl.vals fun σ _ => ?_⟩
  have hB := BF_pos.ne'
  have hf0 := hp fun d => (r d).1 + σ d
  rw [neg_neg, mul_div_cancel_left₀ _ (by positivity), Real.exp_log (by positivity)]
  ring

/-! ## Without data -/

/-- **C83** (no data). Where one of the variables has no data (a null pointer), the pressure converters deliver none,
without an error; the same for the surface of the hybrid height, its offset and the heights above ground. -/
theorem C83_no_data (c : Cdm) (rd : Reader ℝ) (rd0 : String → String → ℕ → Res (Option (List ℝ))) (junk : ℕ → ℝ)
    (sb : Builder) (v1 v2 v3 p0 u1 u2 u3 : String) (a1 a2 a3 : Var ℝ) (h1 : readVar c rd v1 u1 sb = .ok a1)
    (h2 : readVar c rd v2 u2 sb = .ok a2) (h3 : readVar c rd v3 u3 sb = .ok a3) :
    ((a1.data = none ∨ a2.data = none ∨ a3.data = none) →
      (u1 = "hPa" → u2 = "hPa" → u3 = "" → hybridSigmaAp c rd v1 v2 v3 junk sb = .ok none ∧
        sigma c rd v1 v2 v3 junk sb = .ok none) ∧
      (u1 = "hPa" → u2 = "" → u3 = "" → hybridSigma c rd rd0 v1 v2 v3 p0 junk sb = .ok none)) ∧
    ((a1.data = none ∨ a2.data = none) →
      (u1 = "hPa" → u2 = "" → lnP c rd v1 v2 junk sb = .ok none) ∧
      (u1 = "m" → u2 = "m" → u3 = "" → hybridAltitude c rd v2 v3 v1 junk sb = .ok none)) := by
  refine ⟨fun h => ⟨?_, ?_⟩, fun h => ⟨?_, ?_⟩⟩
  · rintro rfl rfl rfl
    constructor
    · simp only [hybridSigmaAp, h1, h2, h3, Res.ok_bind]
      split <;> simp_all
    · simp only [sigma, h1, h2, h3, Res.ok_bind]
      split <;> simp_all
  · rintro rfl rfl rfl
    simp only [hybridSigma, h1, h2, h3, Res.ok_bind]
    split <;> simp_all
  · rintro rfl rfl
    simp only [lnP, h1, h2, Res.ok_bind]
    split <;> simp_all
  · rintro rfl rfl rfl
    simp only [hybridAltitude, h1, h2, h3, Res.ok_bind]
    split <;> simp_all

/-- **C83** (the code, no `b`). The hybrid height does not ask whether `b` has data: with a null pointer for `b`, every
slice that is not empty is read through it. -/
theorem C83_hybrid_height_without_b (c : Cdm) (rd : Reader ℝ) (a b orog : String) (sa sb sorog org : List String)
    (fa forog : (String → ℕ) → ℝ) (ha : Has c rd a "m" sa fa) (hsb : c.shapeOf b = some sb) (nb : sb.Nodup)
    (kb : ∀ d ∈ sb, ∃ n, c.dimLength d = some n ∧ 0 < n ∧ n < two64) (hb : ∀ s, rd b "" s = .ok none)
    (horog : Has c rd orog "m" sorog forog) (ho : org.Nodup) (ca : Covers c org sa) (cb : Covers c org sb)
    (corog : Covers c org sorog) (junk : ℕ → ℝ) (r : String → ℕ × ℕ) (req : Builder) (hs : Asks org r req)
    (hf : Fits c org r) : hybridAltitude c rd a b orog junk req = .ub := by
  obtain ⟨l1, e1, v1⟩ := readVar_ok ha ho hs hf
  obtain ⟨l3, e3, v3⟩ := readVar_ok horog ho hs hf
  have eb : readVar c rd b "" req = .ok ⟨full (fun d => (regionOf c org r d).2) sb, none⟩ := by
    let rd' : Reader ℝ := fun _ _ => ideal sb fun _ => 0
    have hh : Has c rd' b "" sb (fun _ => 0) := ⟨hsb, kb, ideal_delivers c nb fun _ _ _ => rfl⟩
    obtain ⟨b1, e1, k1⟩ := adaptVar_ok hh ho hs fun d _ hd => (hf d hd).2
    have hfit := regionOf_fits hh hf
    obtain ⟨b2, e2, -⟩ := adaptVar_ok hh nb k1 fun d hd _ => (hfit d hd).2
    unfold readVar
    rw [e1, Res.ok_bind, sliceDims_ok nb k1 fun d hd => (hfit d hd).1, Res.ok_bind, e2, Res.ok_bind, hb]
    rfl
  have hlen : ∀ d ∈ org, loopLen org r d = (r d).2 := fun d hd => if_pos hd
  have hpos : ∀ d, 0 < loopLen org r d := by
    intro d
    unfold loopLen
    split_ifs with h
    · exact (hf d h).1
    · exact Nat.one_pos
  have hne : ∀ {names : List String} {f : (String → ℕ) → ℝ} {l : List ℝ}, (∀ d ∈ names, 0 < (regionOf c org r d).2) →
      Values (fun d => (regionOf c org r d).2) names f l → ∃ x xs, l = x :: xs := by
    intro names f l hp hv
    have : l ≠ [] := by
      intro h
      have := hv.length
      rw [h] at this
      exact absurd this.symm (Nat.pos_iff_ne_zero.1 (prod_positive _ (by
        intro x hx; obtain ⟨d, hd, rfl⟩ := List.mem_map.1 hx; exact hp d hd)))
    exact List.exists_cons_of_ne_nil this
  obtain ⟨x, xs, rfl⟩ := hne (fun d hd => (regionOf_fits ha hf d hd).1) v1
  obtain ⟨y, ys, rfl⟩ := hne (fun d hd => (regionOf_fits horog hf d hd).1) v3
  have := fill_ub hs ho hlen hpos [(sorog, y :: ys), (sb, []), (sa, x :: xs)] [] (by
    intro a h
    simp only [List.append_nil, List.mem_cons, List.not_mem_nil, or_false] at h
    rcases h with rfl | rfl | rfl
    · exact horog.data.nodup
    · exact nb
    · exact ha.data.nodup) heightCall (by
      intro n hn
      obtain ⟨n, rfl⟩ := Nat.exists_eq_add_of_lt hn
      simp only [heightCall, hybridHeight, loop2, List.append_nil, List.map_cons, List.map_nil]
      rw [show 0 + n + 1 = n + 1 by omega, List.range_succ_eq_map, readAt_some (l := y :: ys) (x := y) rfl, Res.ok_bind,
        List.mapM_cons]
      rfl) junk
  simp only [List.map_cons, List.map_nil] at this
  rw [full_congr fun d hd => (regionOf_len ca d hd).symm, full_congr fun d hd => (regionOf_len cb d hd).symm,
    full_congr fun d hd => (regionOf_len corog d hd).symm] at this
  simp only [hybridAltitude, e1, e3, eb, Res.ok_bind, Option.getD_none, this, Res.ub_bind]

/-- **C83** (the code, no reference pressure): the reference pressure is read for the position 0 and its first value
taken without asking; without data or with empty data this is undefined, if the other variables have data. -/
theorem C83_no_reference_pressure (c : Cdm) (rd : Reader ℝ) (rd0 : String → String → ℕ → Res (Option (List ℝ)))
    (junk : ℕ → ℝ) (sb : Builder) (ps a b p0 : String) (a1 a2 a3 : Var ℝ) (h1 : readVar c rd ps "hPa" sb = .ok a1)
    (h2 : readVar c rd a "" sb = .ok a2) (h3 : readVar c rd b "" sb = .ok a3) (l1 l2 l3 : List ℝ)
    (d1 : a1.data = some l1) (d2 : a2.data = some l2) (d3 : a3.data = some l3)
    (h0 : rd0 p0 "hPa" 0 = .ok none ∨ rd0 p0 "hPa" 0 = .ok (some [])) :
    hybridSigma c rd rd0 ps a b p0 junk sb = .ub := by
  have hf : firstOf rd0 p0 "hPa" 0 = .ub := by
    rcases h0 with h | h <;> simp [firstOf, h]
  simp only [hybridSigma, h1, h2, h3, Res.ok_bind, d1, d2, d3, hf, Res.ub_bind]

/-- **C83** (no data for the standard atmosphere): the length of the array is asked for through the null pointer. -/
theorem C83_standard_without_data (get : Source ℝ) (sb : Builder) (h : get sb = .ok none) :
    standardPressure get sb = .ub ∧ standardAltitude get sb = .ub := by
  simp [standardPressure, standardAltitude, h]

/-- **C83** (ocean variables missing): an exception for every request. -/
theorem C83_ocean_incomplete (c : Cdm) (rd : Reader ℝ) (v : OceanVars)
    (func : ℕ → ℝ → ℝ → ℝ → List ℝ → List ℝ → Res (List ℝ)) (junk : ℕ → ℝ) (sb : Builder)
    (h : v.s = "" ∨ v.C = "" ∨ v.depth = "" ∨ v.depthC = "") : ocean c rd v func junk sb = .throws := by
  have : v.complete = false := by rcases h with h | h | h | h <;> simp [OceanVars.complete, h]
  simp [ocean, this]

/-! ## All shapes with the same first dimension -/

/-- **C83** (hybrid sigma pressure with `ap`, exactly). Whatever the shapes are: the surface pressure is taken at the
beginning of the slice in the dimensions `P` with which all the shapes begin. -/
theorem C83_hybrid_sigma_ap_exact (c : Cdm) (rd : Reader ℝ) (ps ap b : String) (sps sap sb org : List String)
    (fps fap fb : (String → ℕ) → ℝ) (hps : Has c rd ps "hPa" sps fps) (hap : Has c rd ap "hPa" sap fap)
    (hb : Has c rd b "" sb fb) (ho : org.Nodup) (cps : Covers c org sps) (cap : Covers c org sap) (cb : Covers c org sb)
    (junk : ℕ → ℝ) (P : List String) (hP : Beginning P [sps, sap, sb, org]) (r : String → ℕ × ℕ) (req : Builder)
    (hs : Asks org r req) (hf : Fits c org r) :
    ∃ l, hybridSigmaAp c rd ps ap b junk req = .ok (some l) ∧ Values (fun d => (r d).2) org (fun τ =>
      fap (within org fun d => (r d).1 + τ d) + fb (within org fun d => (r d).1 + τ d) *
        fps (within org (atStart P r fun d => (r d).1 + τ d))) l := by
  obtain ⟨d1, d2, d3, l1, l2, l3, L, P', e1, e2, e3, e, hP', hL⟩ :=
    three_read hps hap hb ho cps cap cb hs hf _ _ _ _ _ apCall_ok junk
  obtain rfl := beginning_unique (by simp) hP hP'
  refine ⟨L, ?_, hL.vals fun σ _ => by simp⟩
  simp only [hybridSigmaAp, e1, e2, e3, e, Res.ok_bind]

/-! ## Examples -/

/-- A model with levels, two horizontal dimensions and a time. -/
def exCdm : Cdm := ⟨fun v => if v = "ps" ∨ v = "eta" then some ["x", "y", "t"] else
    if v = "ap" ∨ v = "b" ∨ v = "p3" then some ["lev"] else if v = "topo" then some ["x", "y"] else
    if v = "hc" then some [] else none,
  fun d => if d = "lev" then some 3 else if d = "x" ∨ d = "y" then some 2 else if d = "t" then some 4 else none⟩

/-- The number of a point, as data for the examples. -/
def exVal (names : List String) (σ : String → ℕ) : ℝ := 1 + (names.map σ).sum

/-- A reader for this model. -/
noncomputable def exReader : Reader ℝ := fun v _ =>
  ideal ((exCdm.shapeOf v).getD []) (exVal ((exCdm.shapeOf v).getD []))

theorem exReader_has (v unit : String) (names : List String) (hv : exCdm.shapeOf v = some names) (hn : names.Nodup)
    (hd : ∀ d ∈ names, d ∈ ["lev", "x", "y", "t"]) : Has exCdm exReader v unit names (exVal names) := by
  refine ⟨hv, fun d h => ?_, ?_⟩
  · have := hd d h
    simp only [List.mem_cons, List.not_mem_nil, or_false] at this
    rcases this with rfl | rfl | rfl | rfl
    · exact ⟨3, rfl, by decide, by decide⟩
    · exact ⟨2, rfl, by decide, by decide⟩
    · exact ⟨2, rfl, by decide, by decide⟩
    · exact ⟨4, rfl, by decide, by decide⟩
  · unfold exReader
    rw [hv]
    refine ideal_delivers exCdm hn fun σ τ h => ?_
    show 1 + (((names.map σ).sum : ℕ) : ℝ) = 1 + (((names.map τ).sum : ℕ) : ℝ)
    rw [List.map_congr_left h]

/-- The shape of the results. -/
def exOrg : List String := ["x", "y", "lev", "t"]

/-- A request for a part of it. -/
def exReq : Builder := ⟨exOrg.zipIdx, exOrg, [2, 2, 3, 4], [false, false, false, false], [1, 0, 1, 2], [1, 2, 2, 1]⟩

/-- Its region. -/
def exReg (d : String) : ℕ × ℕ := if d = "x" then (1, 1) else if d = "y" then (0, 2) else if d = "lev" then (1, 2) else (2, 1)

theorem exAsks : Asks exOrg exReg exReq := ⟨rfl, by decide +kernel, by decide +kernel⟩

theorem exFits : Fits exCdm exOrg exReg := by unfold Fits; decide +kernel

theorem exCovers (names : List String) (hd : ∀ d ∈ names, d ∈ ["lev", "x", "y", "t"]) : Covers exCdm exOrg names := by
  intro d h hn
  have := hd d h
  simp [exOrg] at this hn
  tauto

theorem noCommon_of {shapes : List (List String)} {d e : String} {s t : List String} (h1 : (d :: s) ∈ shapes)
    (h2 : (e :: t) ∈ shapes) (hne : d ≠ e) : NoCommon shapes := by
  intro Q hQ
  cases Q with
  | nil => rfl
  | cons q Q =>
    have a := List.cons_prefix_cons.1 (hQ _ h1)
    have b := List.cons_prefix_cons.1 (hQ _ h2)
    exact absurd (a.1.symm.trans b.1) hne

theorem noCommon_nil {shapes : List (List String)} (h : [] ∈ shapes) : NoCommon shapes := fun _ hQ =>
  List.prefix_nil.1 (hQ _ h)

/-- The hypotheses of the theorems are met: hybrid sigma pressure of a part of the model. -/
example : hybridSigmaAp exCdm exReader "ps" "ap" "b" (fun _ => 7) exReq = .ok (some [10, 12, 15, 18]) := by
  have h := C83_hybrid_sigma_ap exCdm exReader "ps" "ap" "b" _ _ _ exOrg _ _ _
    (exReader_has "ps" "hPa" ["x", "y", "t"] rfl (by decide) (by decide))
    (exReader_has "ap" "hPa" ["lev"] rfl (by decide) (by decide)) (exReader_has "b" "" ["lev"] rfl (by decide) (by decide))
    (by decide) (exCovers _ (by decide)) (exCovers _ (by decide)) (exCovers _ (by decide))
    (noCommon_of (s := ["y", "t"]) (t := []) (List.mem_cons_self ..) (List.mem_cons_of_mem _ (List.mem_cons_self ..))
      (by decide)) fun _ => 7
  obtain ⟨l, e, hl⟩ := h.slice exReg exReq exAsks exFits
  have h1 := hl.length
  obtain ⟨a, b, c, d, rfl⟩ : ∃ a b c d, l = [a, b, c, d] := by
    have : l.length = 4 := h1
    obtain ⟨a, t, rfl⟩ := List.exists_cons_of_length_eq_add_one this
    obtain ⟨b, c, d, rfl⟩ := List.length_eq_three.1 (by simpa using this)
    exact ⟨a, b, c, d, rfl⟩
  have g (y z : ℕ) (hy : y < 2) (hz : z < 2) := hl.get (fun d => if d = "y" then y else if d = "lev" then z else 0) (by
    simp [exOrg, exReg, hy, hz])
  have g0 := g 0 0 (by decide) (by decide)
  have g1 := g 1 0 (by decide) (by decide)
  have g2 := g 0 1 (by decide) (by decide)
  have g3 := g 1 1 (by decide) (by decide)
  simp [place, exOrg, exReg, pos, exVal, within] at g0 g1 g2 g3
  rw [e, g0, g1, g2, g3]
  norm_num

theorem same_beginning (s : List String) : Beginning s [s, s, s, s] :=
  ⟨by simp, fun Q hQ => (hQ s (by simp)).length_le⟩

/-- **C83** (the code, all shapes with the same dimensions). The converter does not deliver `ap + b * ps` for every
slice: with all three variables on the levels, the second level is computed with the surface pressure of the first. -/
theorem C83_common_dimension_violated :
    ¬ Delivers exCdm ["lev"] (fun σ => exVal ["lev"] (within ["lev"] σ) +
        exVal ["lev"] (within ["lev"] σ) * exVal ["lev"] (within ["lev"] σ))
      (hybridSigmaAp exCdm exReader "p3" "ap" "b" fun _ => 0) := by
  intro h
  have hh (v unit : String) (hv : exCdm.shapeOf v = some ["lev"]) := exReader_has v unit ["lev"] hv (by decide) (by decide)
  have hc : Covers exCdm ["lev"] ["lev"] := fun d h hn => absurd h hn
  have hs : Asks ["lev"] (fun _ => (0, 3)) ⟨[("lev", 0)], ["lev"], [3], [false], [0], [3]⟩ := ⟨rfl, rfl, rfl⟩
  have hf : Fits exCdm ["lev"] (fun _ => (0, 3)) := by unfold Fits; decide +kernel
  obtain ⟨l, e, hl⟩ := h.slice _ _ hs hf
  obtain ⟨l', e', hl'⟩ := C83_hybrid_sigma_ap_exact exCdm exReader "p3" "ap" "b" _ _ _ ["lev"] _ _ _
    (hh "p3" "hPa" rfl) (hh "ap" "hPa" rfl) (hh "b" "" rfl) (by decide) hc hc hc (fun _ => 0) _ (same_beginning _) _ _ hs hf
  rw [e] at e'
  obtain rfl : l = l' := by simpa using e'
  have h1 := hl.get (fun _ => 1) (by simp)
  have h2 := hl'.get (fun _ => 1) (by simp)
  rw [h1] at h2
  simp [exVal, within, atStart] at h2

/-- The depths of an ocean model with the elevation, for every slice. -/
example : Delivers exCdm exOrg (fun σ => -(exVal ["x", "y", "t"] (within exOrg σ) +
      (exVal ["x", "y", "t"] (within exOrg σ) + exVal ["x", "y"] (within exOrg σ)) *
        ((1 * exVal ["lev"] (within exOrg σ) + exVal ["x", "y"] (within exOrg σ) * exVal ["lev"] (within exOrg σ)) /
          (exVal ["x", "y"] (within exOrg σ) + 1))))
    (ocean exCdm exReader ⟨"ap", "b", "topo", "hc", "eta"⟩ oceanG2 fun _ => 7) := by
  refine C83_ocean_g2 exCdm exReader ⟨"ap", "b", "topo", "hc", "eta"⟩ exOrg _ _ _ _ 1 ⟨by decide, ["lev"], ["lev"],
    ["x", "y"], [], exReader_has _ _ _ rfl (by decide) (by decide), exReader_has _ _ _ rfl (by decide) (by decide),
    exReader_has _ _ _ rfl (by decide) (by decide), exCovers _ (by decide), exCovers _ (by decide), exCovers _ (by decide),
    ⟨_, exReader_has _ _ [] rfl (by decide) (by decide), by simp, by simp [exVal]⟩, .inr ⟨by decide, ["x", "y", "t"],
    exReader_has _ _ _ rfl (by decide) (by decide), exCovers _ (by decide), ?_⟩⟩ (by decide) ?_ _
  · exact noCommon_of (d := "lev") (e := "x") (s := []) (t := ["y"]) (by simp) (by simp) (by decide)
  · intro σ
    unfold exVal
    positivity

/-- A height above the ground, with the altitude of another converter. -/
example : Delivers exCdm exOrg (fun σ => exVal ["lev"] (within exOrg σ) + (if false then 1 else -1) *
      (if topoUnit "surface_geopotential" = "m" then exVal ["x", "y"] (within exOrg σ)
        else exVal ["x", "y"] (within exOrg σ) / 9.80665))
    (altitudeHeight exCdm exReader "topo" "surface_geopotential" (.ok ["lev"]) (exReader "ap" "m") false fun _ => 7) :=
  C83_altitude_height exCdm exReader "topo" "surface_geopotential" _ _ exOrg _ _ _ false
    (exReader_has _ _ _ rfl (by decide) (by decide)) (exReader_has "ap" "m" _ rfl (by decide) (by decide)).data
    (by decide +kernel) (by decide) (exCovers _ (by decide)) (exCovers _ (by decide)) _

end Fimex.Converters
