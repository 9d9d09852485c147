import Verif.Interp.NearestModel
import Verif.Interp.HorizontalProps

/-!
# NearestCell cells by coordinates: C103
-/

namespace Fimex.Nearest

open Real

/-! ## Distances on the sphere -/

/-- The angle between two places: the angle between the vectors from the centre of the unit sphere. -/
noncomputable def angle (a b : Place) : ℝ := arccos ((vec a).x * (vec b).x + (vec a).y * (vec b).y + (vec a).z * (vec b).z)

/-- A place with a latitude between the poles. -/
def Place.Valid (a : Place) : Prop := -(π / 2) ≤ a.lat ∧ a.lat ≤ π / 2

theorem cosD_eq (a b : Place) : cosD a b = (vec a).x * (vec b).x + (vec a).y * (vec b).y + (vec a).z * (vec b).z := by
  unfold cosD vec
  rw [cos_sub]
  ring

theorem unit (a : Place) : (vec a).x * (vec a).x + (vec a).y * (vec a).y + (vec a).z * (vec a).z = 1 := by
  unfold vec
  have h1 := sin_sq_add_cos_sq a.lat
  have h2 := sin_sq_add_cos_sq a.lon
  nlinarith

theorem dist2_eq (a b : Place) : dist2 (vec a) (vec b) = 2 - 2 * cosD a b := by
  rw [cosD_eq]
  unfold dist2
  have h1 := unit a
  have h2 := unit b
  nlinarith

theorem cosD_bounds (a b : Place) : -1 ≤ cosD a b ∧ cosD a b ≤ 1 := by
  have h := dist2_eq a b
  have h0 : 0 ≤ dist2 (vec a) (vec b) := by
    unfold dist2
    nlinarith [mul_self_nonneg ((vec a).x - (vec b).x), mul_self_nonneg ((vec a).y - (vec b).y), mul_self_nonneg ((vec a).z - (vec b).z)]
  refine ⟨?_, by linarith⟩
  have h1 := unit a
  have h2 := unit b
  rw [cosD_eq]
  nlinarith [mul_self_nonneg ((vec a).x + (vec b).x), mul_self_nonneg ((vec a).y + (vec b).y), mul_self_nonneg ((vec a).z + (vec b).z)]

theorem angle_eq (a b : Place) : angle a b = arccos (cosD a b) := by
  unfold angle
  rw [cosD_eq]

theorem cos_angle (a b : Place) : cos (angle a b) = cosD a b := by
  rw [angle_eq, cos_arccos (cosD_bounds a b).1 (cosD_bounds a b).2]

theorem angle_nonneg (a b : Place) : 0 ≤ angle a b := arccos_nonneg _
theorem angle_le_pi (a b : Place) : angle a b ≤ π := arccos_le_pi _

/-- The larger cosine is the smaller angle. -/
theorem angle_lt_iff {a b : Place} {r : ℝ} (h0 : 0 ≤ r) (h1 : r ≤ π) : angle a b < r ↔ cos r < cosD a b := by
  rw [← cos_angle]
  exact (strictAntiOn_cos.lt_iff_gt ⟨h0, h1⟩ ⟨angle_nonneg a b, angle_le_pi a b⟩).symm

theorem angle_le_iff {a b c d : Place} : angle a b ≤ angle c d ↔ cosD c d ≤ cosD a b := by
  rw [← cos_angle, ← cos_angle]
  exact (strictAntiOn_cos.le_iff_ge ⟨angle_nonneg c d, angle_le_pi c d⟩ ⟨angle_nonneg a b, angle_le_pi a b⟩).symm

theorem angle_comm (a b : Place) : angle a b = angle b a := by
  unfold angle
  congr 1
  ring

/-- The angle is at least the difference of the latitudes. -/
theorem cosD_le {a b : Place} (ha : a.Valid) (hb : b.Valid) : cosD a b ≤ cos (a.lat - b.lat) := by
  unfold cosD
  rw [cos_sub a.lat]
  have h1 := cos_nonneg_of_mem_Icc (x := a.lat) ⟨ha.1, ha.2⟩
  have h2 := cos_nonneg_of_mem_Icc (x := b.lat) ⟨hb.1, hb.2⟩
  have h3 := cos_le_one (a.lon - b.lon)
  have h4 := mul_nonneg h1 h2
  nlinarith

theorem far_latitude {a b : Place} (ha : a.Valid) (hb : b.Valid) {m : ℝ} (h1 : -1 ≤ m) (h2 : m ≤ 1) (h : arccos m < |a.lat - b.lat|) :
    cosD a b ≤ m := by
  refine (cosD_le ha hb).trans ?_
  rw [← cos_abs, ← cos_arccos h1 h2]
  have hle : |a.lat - b.lat| ≤ π := by
    rw [abs_le]
    obtain ⟨a1, a2⟩ := ha
    obtain ⟨b1, b2⟩ := hb
    constructor <;> linarith
  rw [cos_arccos h1 h2]
  have := strictAntiOn_cos ⟨arccos_nonneg m, arccos_le_pi m⟩ ⟨abs_nonneg _, hle⟩ h
  rw [cos_arccos h1 h2] at this
  exact this.le

/-! ## The search by latitude -/

/-- What a search has found among the points: the largest cosine above the one at the beginning, or nothing. -/
def Found (p : Place) (l : List Point) (s s' : Best) (m : ℝ) : Prop :=
  ∃ m', s'.cosine = some m' ∧ m ≤ m' ∧ m' ≤ 1 ∧ (∀ a ∈ l, cosD a.toPlace p ≤ m') ∧
    (s' = s ∨ ∃ a ∈ l, s' = ⟨some (cosD a.toPlace p), a.x, a.y⟩ ∧ m < cosD a.toPlace p)

theorem walk_found {p : Place} (hp : p.Valid) : ∀ (l : List Point) (s : Best) (m : ℝ), s.cosine = some m → -1 ≤ m → m ≤ 1 →
    (∀ a ∈ l, a.toPlace.Valid) → (l.Pairwise fun a b => |a.lat - p.lat| ≤ |b.lat - p.lat|) →
    Found p l s (walk (some p.lat, some p.lon) l s) m
  | [], s, m, hs, _, h1, _, _ => ⟨m, hs, le_rfl, h1, by simp, .inl rfl⟩
  | a :: l, s, m, hs, h0, h1, hv, hl => by
    obtain ⟨hl1, hl2⟩ := List.pairwise_cons.1 hl
    have hva := hv a (by simp)
    unfold walk
    have hm : acosF s.cosine = some (arccos m) := by rw [hs]; simp [acosF, h0, h1]
    rw [hm]
    simp only [Option.map_some, gt, decide_eq_true_eq]
    by_cases hfar : arccos m < |a.lat - p.lat|
    · rw [if_pos hfar]
      refine ⟨m, hs, le_rfl, h1, ?_, .inl rfl⟩
      intro b hb
      have hb' : |a.lat - p.lat| ≤ |b.lat - p.lat| := by
        rcases List.mem_cons.1 hb with rfl | hb
        · exact le_rfl
        · exact hl1 b hb
      exact far_latitude (hv b hb) hp h0 h1 (hfar.trans_le hb')
    · rw [if_neg hfar]
      have ht : target (some p.lat, some p.lon) = some p := rfl
      rw [ht, hs]
      simp only [Option.map_some, decide_eq_true_eq]
      have ih := walk_found hp l
      by_cases hc : m < cosD a.toPlace p
      · rw [if_pos hc]
        have hb := cosD_bounds a.toPlace p
        obtain ⟨m', e1, e2, e3, e4, e5⟩ := ih ⟨some (cosD a.toPlace p), a.x, a.y⟩ (cosD a.toPlace p) rfl hb.1 hb.2
          (fun b hb => hv b (List.mem_cons_of_mem _ hb)) hl2
        refine ⟨m', e1, hc.le.trans e2, e3, ?_, ?_⟩
        · intro b hb
          rcases List.mem_cons.1 hb with rfl | hb
          · exact e2
          · exact e4 b hb
        · rcases e5 with e5 | ⟨b, hb, e5, e6⟩
          · exact .inr ⟨a, by simp, e5, hc⟩
          · exact .inr ⟨b, List.mem_cons_of_mem _ hb, e5, hc.trans e6⟩
      · rw [if_neg hc]
        obtain ⟨m', e1, e2, e3, e4, e5⟩ := ih s m hs h0 h1 (fun b hb => hv b (List.mem_cons_of_mem _ hb)) hl2
        refine ⟨m', e1, e2, e3, ?_, ?_⟩
        · intro b hb
          rcases List.mem_cons.1 hb with rfl | hb
          · exact (not_lt.1 hc).trans e2
          · exact e4 b hb
        · rcases e5 with e5 | ⟨b, hb, e5, e6⟩
          · exact .inl e5
          · exact .inr ⟨b, List.mem_cons_of_mem _ hb, e5, e6⟩

/-- The target of a search, in degrees. -/
noncomputable def degrees (lat lon : ℝ) : Place := ⟨lat * (π / 180), lon * (π / 180)⟩

theorem degrees_valid {lat lon : ℝ} (h1 : -90 ≤ lat) (h2 : lat ≤ 90) : (degrees lat lon).Valid := by
  have := pi_pos
  unfold degrees Place.Valid
  constructor
  · show -(π / 2) ≤ lat * (π / 180)
    nlinarith
  · show lat * (π / 180) ≤ π / 2
    nlinarith

/-- A target that is not found, or a known cell within the distance that is nearest. -/
def IsNearest (pts : List Point) (p : Place) (roi : ℝ) (none : ℤ × ℤ) (c : ℤ × ℤ) : Prop :=
  (c = none ∧ ∀ a ∈ pts, roi ≤ angle a.toPlace p) ∨
  ∃ a ∈ pts, c = (a.x, a.y) ∧ angle a.toPlace p < roi ∧ ∀ b ∈ pts, angle a.toPlace p ≤ angle b.toPlace p

theorem pairwise_after {p : Place} {l : List Point} (hs : l.Pairwise fun a b => a.lat ≤ b.lat) (h : ∀ a ∈ l, p.lat ≤ a.lat) :
    l.Pairwise fun a b => |a.lat - p.lat| ≤ |b.lat - p.lat| := by
  refine hs.imp_of_mem fun {a b} ha hb hab => ?_
  rw [abs_of_nonneg (by linarith [h a ha]), abs_of_nonneg (by linarith [h b hb])]
  linarith

theorem pairwise_before {p : Place} {l : List Point} (hs : l.Pairwise fun a b => a.lat ≤ b.lat) (h : ∀ a ∈ l, a.lat < p.lat) :
    l.reverse.Pairwise fun a b => |a.lat - p.lat| ≤ |b.lat - p.lat| := by
  rw [List.pairwise_reverse]
  refine hs.imp_of_mem fun {a b} ha hb hab => ?_
  rw [abs_of_neg (by linarith [h b hb]), abs_of_neg (by linarith [h a ha])]
  linarith

theorem dropWhile_ge {p : ℝ} : ∀ {l : List Point}, (l.Pairwise fun a b => a.lat ≤ b.lat) → ∀ a ∈ l.dropWhile (fun a => decide (a.lat < p)), p ≤ a.lat
  | [], _, a, h => by simp at h
  | b :: l, hs, a, h => by
    obtain ⟨h1, h2⟩ := List.pairwise_cons.1 hs
    by_cases hb : b.lat < p
    · rw [List.dropWhile_cons_of_pos (by simpa using hb)] at h
      exact dropWhile_ge h2 a h
    · rw [List.dropWhile_cons_of_neg (by simpa using hb)] at h
      rcases List.mem_cons.1 h with rfl | h
      · exact not_lt.1 hb
      · exact (not_lt.1 hb).trans (h1 a h)

/-- **C103.** The search by latitude gives the nearest known cell within the distance, if there is one. -/
theorem C103_search {sorted pts : List Point} (hperm : sorted.Perm pts) (hs : sorted.Pairwise fun a b => a.lat ≤ b.lat)
    (hv : ∀ a ∈ pts, a.toPlace.Valid) {roi : ℝ} (h0 : 0 ≤ roi) (h1 : roi ≤ π) {lat lon : ℝ} (hl : -90 ≤ lat) (hl' : lat ≤ 90) :
    IsNearest pts (degrees lat lon) roi (-1, -1) (search sorted (some (cos roi)) (some lat, some lon)) := by
  have hp := degrees_valid (lon := lon) hl hl'
  generalize hpe : degrees lat lon = p at hp
  have e1 : degToRad (some lat) = some p.lat := by rw [← hpe]; rfl
  have e2 : degToRad (some lon) = some p.lon := by rw [← hpe]; rfl
  unfold search
  dsimp only
  rw [e1, e2]
  have hb : (fun a : Point => gt (some p.lat) (some a.lat)) = fun a : Point => decide (a.lat < p.lat) := by funext a; rfl
  rw [hb]
  have hsplit := List.takeWhile_append_dropWhile (p := fun a : Point => decide (a.lat < p.lat)) (l := sorted)
  generalize hd : sorted.dropWhile (fun a : Point => decide (a.lat < p.lat)) = after at hsplit
  generalize ht : sorted.takeWhile (fun a : Point => decide (a.lat < p.lat)) = before at hsplit
  have hafter : ∀ a ∈ after, p.lat ≤ a.lat := by rw [← hd]; exact dropWhile_ge hs
  have hbefore : ∀ a ∈ before, a.lat < p.lat := by
    rw [← ht]
    intro a ha
    simpa using List.all_eq_true.1 (List.all_takeWhile (p := fun a : Point => decide (a.lat < p.lat)) (l := sorted)) a ha
  have hmem : ∀ a, a ∈ pts ↔ a ∈ before ∨ a ∈ after := by
    intro a
    rw [← hperm.mem_iff, ← hsplit, List.mem_append]
  rw [← hsplit, List.pairwise_append] at hs
  obtain ⟨m1, a1, a2, a3, a4, a5⟩ := walk_found hp after ⟨some (cos roi), -1, -1⟩ (cos roi) rfl (neg_one_le_cos _) (cos_le_one _)
    (fun a ha => hv a ((hmem a).2 (.inr ha))) (pairwise_after hs.2.1 hafter)
  obtain ⟨m2, b1, b2, b3, b4, b5⟩ := walk_found hp before.reverse _ m1 a1 ((neg_one_le_cos _).trans a2) a3
    (fun a ha => hv a ((hmem a).2 (.inl (List.mem_reverse.1 ha)))) (pairwise_before hs.1 hbefore)
  have hall : ∀ a ∈ pts, cosD a.toPlace p ≤ m2 := by
    intro a ha
    rcases (hmem a).1 ha with h | h
    · exact b4 a (List.mem_reverse.2 h)
    · exact (a4 a h).trans b2
  generalize walk (some p.lat, some p.lon) before.reverse (walk (some p.lat, some p.lon) after ⟨some (cos roi), -1, -1⟩) = s2 at *
  generalize walk (some p.lat, some p.lon) after ⟨some (cos roi), -1, -1⟩ = s1 at *
  have hit : ∀ a ∈ pts, s2 = ⟨some (cosD a.toPlace p), a.x, a.y⟩ → cos roi < cosD a.toPlace p → IsNearest pts p roi (-1, -1) (s2.x, s2.y) := by
    intro a ha e hlt
    refine .inr ⟨a, ha, by rw [e], (angle_lt_iff h0 h1).2 hlt, fun b hb => angle_le_iff.2 ?_⟩
    have : m2 = cosD a.toPlace p := by rw [e] at b1; exact (Option.some.inj b1).symm
    rw [← this]
    exact hall b hb
  rcases b5 with b5 | ⟨a, ha, b5, b6⟩
  · rcases a5 with a5 | ⟨a, ha, a5, a6⟩
    · subst b5 a5
      refine .inl ⟨rfl, fun a ha => ?_⟩
      by_contra hc
      have h3 := (angle_lt_iff h0 h1).1 (not_le.1 hc)
      have : m2 = cos roi := (Option.some.inj b1).symm
      rw [← this] at h3
      exact absurd (hall a ha) (not_le.2 h3)
    · subst b5
      exact hit a ((hmem a).2 (.inr ha)) a5 a6
  · exact hit a ((hmem a).2 (.inl (List.mem_reverse.1 ha))) b5 (a2.trans_lt b6)

/-- **C103.** A target with a coordinate that is not a number is not found. -/
theorem C103_nan {sorted : List Point} {c : F} {t : F × F} (h : t.1 = none ∨ t.2 = none) : search sorted c t = (-1, -1) := by
  have hw : ∀ (p : F × F), target p = none → ∀ (l : List Point) (s : Best), walk p l s = s := by
    intro p hp l
    induction l with
    | nil => intro s; rfl
    | cons a l ih =>
      intro s
      unfold walk
      split
      · rfl
      · rw [hp]
        exact ih s
  have ht : target (degToRad t.1, degToRad t.2) = none := by
    rcases t with ⟨_ | a, _ | b⟩
    · rfl
    · rfl
    · rfl
    · simp at h
  unfold search
  dsimp only
  rw [hw _ ht, hw _ ht]

/-! ## The distance of grid cells -/

/-- Another known cell. -/
def Other (cells : ℕ → Option Place) (n s : ℕ) (r : Place) : Prop := ∃ q < n, q ≠ s ∧ cells q = some r

/-- A cell whose next known cell is at the angle `d`. -/
def NextAt (cells : ℕ → Option Place) (n s : ℕ) (d : ℝ) : Prop :=
  ∃ p r, cells s = some p ∧ Other cells n s r ∧ d = angle p r ∧ ∀ r', Other cells n s r' → d ≤ angle p r'

/-- The cells that are looked at: all of a small grid, 53 of a large one. -/
def Sampled (n s : ℕ) : Prop := n ≤ 1000 ∧ s < n ∨ 1000 < n ∧ ∃ k < 53, s = k * (n / 53)

theorem sampled_iff {n s : ℕ} : Sampled n s ↔ ∃ k < (steps n).1, s = k * (steps n).2 := by
  unfold Sampled steps
  by_cases h : n > 1000
  · rw [if_pos h]
    constructor
    · rintro (⟨h1, -⟩ | ⟨-, h2⟩)
      · omega
      · exact h2
    · intro h2
      exact .inr ⟨h, h2⟩
  · rw [if_neg h]
    simp only [mul_one]
    constructor
    · rintro (⟨-, h2⟩ | ⟨h2, -⟩)
      · exact ⟨s, h2, rfl⟩
      · omega
    · rintro ⟨k, hk, rfl⟩
      exact .inl ⟨by omega, hk⟩

theorem mem_positions {nx ny q : ℕ} : q ∈ positions nx ny ↔ q < nx * ny := by
  unfold positions
  simp only [List.mem_flatMap, List.mem_range, List.mem_map]
  constructor
  · rintro ⟨ix, hx, iy, hy, rfl⟩
    calc ix + iy * nx < nx + iy * nx := by omega
      _ = (iy + 1) * nx := by ring
      _ ≤ ny * nx := Nat.mul_le_mul_right _ hy
      _ = nx * ny := Nat.mul_comm _ _
  · intro h
    have hn : 0 < nx := by
      rcases Nat.eq_zero_or_pos nx with h0 | h0
      · rw [h0] at h; omega
      · exact h0
    refine ⟨q % nx, Nat.mod_lt _ hn, q / nx, ?_, ?_⟩
    · rw [Nat.div_lt_iff_lt_mul hn, Nat.mul_comm]; exact h
    · rw [Nat.mul_comm]; exact Nat.mod_add_div q nx

theorem closest_spec {cells : ℕ → Option Place} {p : Place} {s : ℕ} : ∀ (l : List ℕ) (m : ℝ),
    m ≤ closest cells p s l m ∧ (∀ q ∈ l, q ≠ s → ∀ r, cells q = some r → cosD p r ≤ closest cells p s l m) ∧
      (closest cells p s l m = m ∨ ∃ q ∈ l, q ≠ s ∧ ∃ r, cells q = some r ∧ closest cells p s l m = cosD p r)
  | [], m => ⟨le_rfl, by simp, .inl rfl⟩
  | q :: l, m => by
    unfold closest
    by_cases hq : q = s
    · rw [if_pos hq]
      obtain ⟨h1, h2, h3⟩ := closest_spec (cells := cells) (p := p) (s := s) l m
      refine ⟨h1, ?_, ?_⟩
      · intro q' h' hne
        rcases List.mem_cons.1 h' with rfl | h'
        · exact absurd hq hne
        · exact h2 q' h' hne
      · rcases h3 with h3 | ⟨q', h', h3⟩
        · exact .inl h3
        · exact .inr ⟨q', List.mem_cons_of_mem _ h', h3⟩
    · rw [if_neg hq]
      cases hc : cells q with
      | none =>
        dsimp only
        obtain ⟨h1, h2, h3⟩ := closest_spec (cells := cells) (p := p) (s := s) l m
        refine ⟨h1, ?_, ?_⟩
        · intro q' h' hne r hr
          rcases List.mem_cons.1 h' with rfl | h'
          · rw [hc] at hr; cases hr
          · exact h2 q' h' hne r hr
        · rcases h3 with h3 | ⟨q', h', h3⟩
          · exact .inl h3
          · exact .inr ⟨q', List.mem_cons_of_mem _ h', h3⟩
      | some r0 =>
        dsimp only
        obtain ⟨h1, h2, h3⟩ := closest_spec (cells := cells) (p := p) (s := s) l (if cosD p r0 > m then cosD p r0 else m)
        have hm : m ≤ (if cosD p r0 > m then cosD p r0 else m) ∧ cosD p r0 ≤ (if cosD p r0 > m then cosD p r0 else m) := by
          split
          · next h => exact ⟨le_of_lt h, le_rfl⟩
          · next h => exact ⟨le_rfl, not_lt.1 h⟩
        refine ⟨hm.1.trans h1, ?_, ?_⟩
        · intro q' h' hne r hr
          rcases List.mem_cons.1 h' with rfl | h'
          · rw [hc] at hr; cases hr; exact hm.2.trans h1
          · exact h2 q' h' hne r hr
        · rcases h3 with h3 | ⟨q', h', h3⟩
          · by_cases h : cosD p r0 > m
            · rw [if_pos h] at h3
              rw [if_pos h]
              exact .inr ⟨q, by simp, hq, r0, hc, h3⟩
            · rw [if_neg h] at h3
              rw [if_neg h]
              exact .inl h3
          · exact .inr ⟨q', List.mem_cons_of_mem _ h', h3⟩

/-- The sample of a known cell: the cosine of the angle to the next one, or -2 if there is no other. -/
theorem closest_cases {cells : ℕ → Option Place} {p : Place} {nx ny s : ℕ} (hs : cells s = some p) :
    (∃ d, NextAt cells (nx * ny) s d ∧ closest cells p s (positions nx ny) (-2) = cos d) ∨
    ((∀ r, ¬ Other cells (nx * ny) s r) ∧ closest cells p s (positions nx ny) (-2) = -2) := by
  obtain ⟨h1, h2, h3⟩ := closest_spec (cells := cells) (p := p) (s := s) (positions nx ny) (-2)
  by_cases hex : ∃ r, Other cells (nx * ny) s r
  · obtain ⟨r0, q0, hq0, hne0, hr0⟩ := hex
    rcases h3 with h3 | ⟨q, hq, hne, r, hr, h3⟩
    · have := h2 q0 (mem_positions.2 hq0) hne0 r0 hr0
      have hb := (cosD_bounds p r0).1
      rw [h3] at this
      linarith
    · refine .inl ⟨angle p r, ⟨p, r, hs, ⟨q, mem_positions.1 hq, hne, hr⟩, rfl, ?_⟩, by rw [h3, cos_angle]⟩
      rintro r' ⟨q', hq', hne', hr'⟩
      rw [angle_le_iff, ← h3]
      exact h2 q' (mem_positions.2 hq') hne' r' hr'
  · refine .inr ⟨fun r hr => hex ⟨r, hr⟩, ?_⟩
    rcases h3 with h3 | ⟨q, hq, hne, r, hr, -⟩
    · exact h3
    · exact absurd ⟨r, q, mem_positions.1 hq, hne, hr⟩ hex

theorem mem_samples {cells : ℕ → Option Place} {nx ny : ℕ} {c : ℝ} :
    c ∈ samples cells nx ny ↔ ∃ s p, Sampled (nx * ny) s ∧ cells s = some p ∧ c = closest cells p s (positions nx ny) (-2) := by
  unfold samples
  simp only [List.mem_filterMap, List.mem_range, Option.map_eq_some_iff]
  constructor
  · rintro ⟨k, hk, p, hp, rfl⟩
    exact ⟨_, p, sampled_iff.2 ⟨k, hk, rfl⟩, hp, rfl⟩
  · rintro ⟨s, p, hs, hp, rfl⟩
    obtain ⟨k, hk, rfl⟩ := sampled_iff.1 hs
    exact ⟨k, hk, p, hp, rfl⟩

theorem foldl_min : ∀ (l : List ℝ) (a : ℝ), (l.foldl (fun a b => if b < a then b else a) a) ∈ a :: l ∧
    ∀ c ∈ a :: l, (l.foldl (fun a b => if b < a then b else a) a) ≤ c
  | [], a => by simp
  | b :: l, a => by
    obtain ⟨h1, h2⟩ := foldl_min l (if b < a then b else a)
    rw [List.foldl_cons]
    refine ⟨?_, ?_⟩
    · rcases List.mem_cons.1 h1 with h1 | h1
      · rw [h1]
        split <;> simp
      · exact List.mem_cons_of_mem _ (List.mem_cons_of_mem _ h1)
    · have hm : (if b < a then b else a) ≤ a ∧ (if b < a then b else a) ≤ b := by
        split
        · next h => exact ⟨h.le, le_rfl⟩
        · next h => exact ⟨le_rfl, not_lt.1 h⟩
      have h3 := h2 _ (List.mem_cons_self ..)
      intro c hc
      rcases List.mem_cons.1 hc with rfl | hc
      · exact h3.trans hm.1
      · rcases List.mem_cons.1 hc with rfl | hc
        · exact h3.trans hm.2
        · exact h2 c (List.mem_cons_of_mem _ hc)

/-- **C103.** The distance of interest: the largest angle from one of the cells looked at to the next known one, times 1.414, but not more than
half a turn.  At least two cells must be known, and one of those looked at. -/
theorem C103_distance {cells : ℕ → Option Place} {nx ny : ℕ} (h1 : ∃ s p, Sampled (nx * ny) s ∧ cells s = some p)
    (h2 : ∀ s p, Sampled (nx * ny) s → cells s = some p → ∃ r, Other cells (nx * ny) s r) :
    ∃ s d, Sampled (nx * ny) s ∧ NextAt cells (nx * ny) s d ∧ gridDistance cells nx ny = .ok (some (min (d * 1.414) π)) ∧
      ∀ s' d', Sampled (nx * ny) s' → NextAt cells (nx * ny) s' d' → d' ≤ d := by
  have hmem := fun c => mem_samples (cells := cells) (nx := nx) (ny := ny) (c := c)
  unfold gridDistance
  cases hs : samples cells nx ny with
  | nil =>
    obtain ⟨s, p, hsa, hp⟩ := h1
    have := (hmem _).2 ⟨s, p, hsa, hp, rfl⟩
    rw [hs] at this
    cases this
  | cons c l =>
    dsimp only
    rw [hs] at hmem
    obtain ⟨f1, f2⟩ := foldl_min l c
    generalize l.foldl (fun a b => if b < a then b else a) c = m at f1 f2
    obtain ⟨s, p, hsa, hp, hm⟩ := (hmem m).1 f1
    rcases closest_cases (nx := nx) (ny := ny) hp with ⟨d, hd, hc⟩ | ⟨hno, -⟩
    · refine ⟨s, d, hsa, hd, ?_, ?_⟩
      · have hd' := hd
        obtain ⟨p', r, -, -, hda, -⟩ := hd'
        have hdm : d = arccos m := by rw [hm, hc, hda, cos_angle, ← angle_eq]
        have hb : -1 ≤ m ∧ m ≤ 1 := by rw [hm, hc]; exact ⟨neg_one_le_cos _, cos_le_one _⟩
        unfold acosF
        dsimp only
        rw [if_pos hb, ← hdm]
        simp only [Option.map_some, minF]
        congr 2
        rw [min_comm, min_def_lt]
      · intro s' d' hs' hd'
        obtain ⟨p', r', hp', ho', hda', hmin'⟩ := hd'
        have hd2 : NextAt cells (nx * ny) s' d' := ⟨p', r', hp', ho', hda', hmin'⟩
        have hle := f2 _ ((hmem _).2 ⟨s', p', hs', hp', rfl⟩)
        rcases closest_cases (nx := nx) (ny := ny) hp' with ⟨e, he, hce⟩ | ⟨hno, -⟩
        · obtain ⟨p1, r1, q1, q2, q3, q4⟩ := he
          rw [hp'] at q1
          cases q1
          obtain ⟨p2, r2, w1, w2, w3, w4⟩ := hd2
          rw [hp'] at w1
          cases w1
          have hed : e = d' := le_antisymm (by rw [w3]; exact q4 r2 w2) (by rw [q3]; exact w4 r1 q2)
          obtain ⟨p3, r3, -, -, v3, -⟩ := hd
          rw [hce, hm, hc, hed] at hle
          rw [v3, w3] at hle ⊢
          rw [cos_angle, cos_angle] at hle
          exact angle_le_iff.2 hle
        · exact absurd ho' (hno r')
    · obtain ⟨r, hr⟩ := h2 s p hsa hp
      exact absurd hr (hno r)

/-- **C103.** Undefined behaviour if none of the cells looked at is known. -/
theorem C103_distance_unknown {cells : ℕ → Option Place} {nx ny : ℕ} : gridDistance cells nx ny = .ub ↔ ∀ s, Sampled (nx * ny) s → cells s = none := by
  have hmem := fun c => mem_samples (cells := cells) (nx := nx) (ny := ny) (c := c)
  unfold gridDistance
  cases hs : samples cells nx ny with
  | nil =>
    simp only [true_iff]
    intro s hsa
    cases hp : cells s with
    | none => rfl
    | some p =>
      have := (hmem _).2 ⟨s, p, hsa, hp, rfl⟩
      rw [hs] at this
      cases this
  | cons c l =>
    simp only [reduceCtorEq, false_iff]
    intro h
    rw [hs] at hmem
    obtain ⟨s, p, hsa, hp, -⟩ := (hmem c).1 (by simp)
    rw [h s hsa] at hp
    cases hp

/-- **C103.** If one of the cells looked at is known and no other one is, the distance is not a number and nothing is found, not even at that cell. -/
theorem C103_single {cells : ℕ → Option Place} {nx ny s : ℕ} {p : Place} (hs : Sampled (nx * ny) s) (hp : cells s = some p)
    (hno : ∀ r, ¬ Other cells (nx * ny) s r) :
    gridDistance cells nx ny = .ok none ∧ ∀ sorted t, search sorted none t = (-1, -1) := by
  constructor
  · have hmem := fun c => mem_samples (cells := cells) (nx := nx) (ny := ny) (c := c)
    have hin : (-2 : ℝ) ∈ samples cells nx ny := by
      refine (hmem _).2 ⟨s, p, hs, hp, ?_⟩
      rcases closest_cases (nx := nx) (ny := ny) hp with ⟨d, ⟨-, r, -, hr, -⟩, -⟩ | ⟨-, h⟩
      · exact absurd hr (hno r)
      · exact h.symm
    unfold gridDistance
    cases hl : samples cells nx ny with
    | nil => rw [hl] at hin; cases hin
    | cons c l =>
      rw [hl] at hin
      dsimp only
      have := (foldl_min l c).2 _ hin
      unfold acosF
      dsimp only
      rw [if_neg (by rintro ⟨h, -⟩; linarith)]
      rfl
  · intro sorted t
    have hw : ∀ (q : F × F) (l : List Point) (s : Best), s.cosine = none → walk q l s = s := by
      intro q l
      induction l with
      | nil => intro s _; rfl
      | cons a l ih =>
        intro s h
        unfold walk
        split
        · rfl
        · have : gt ((target q).map (cosD a.toPlace)) s.cosine = false := by rw [h]; cases (target q).map (cosD a.toPlace) <;> rfl
          dsimp only
          rw [this]
          exact ih s h
    unfold search
    dsimp only
    rw [hw _ (sorted.dropWhile _) _ rfl, hw _ _ _ rfl]

/-! ## All targets -/

/-- The result for the target at `p`: `missing` if no known cell is at an angle that is near, otherwise column and row of a known cell that is,
and no known cell is nearer. -/
def NearestCell (cells : ℕ → Option Place) (nx ny : ℕ) (near : ℝ → Prop) (missing : ℤ × ℤ) (p : Place) (c : ℤ × ℤ) : Prop :=
  (c = missing ∧ ∀ q r, q < nx * ny → cells q = some r → ¬ near (angle r p)) ∨
  ∃ i j r, i < nx ∧ j < ny ∧ cells (i + j * nx) = some r ∧ c = ((i : ℤ), (j : ℤ)) ∧ near (angle r p) ∧
    ∀ q r', q < nx * ny → cells q = some r' → angle r p ≤ angle r' p

theorem mem_points {cells : ℕ → Option Place} {nx ny : ℕ} {a : Point} :
    a ∈ points cells nx ny ↔ ∃ i j r, i < nx ∧ j < ny ∧ cells (i + j * nx) = some r ∧ a = ⟨r, i, j⟩ := by
  unfold points
  simp only [List.mem_flatMap, List.mem_range, List.mem_filterMap, Option.map_eq_some_iff]
  constructor
  · rintro ⟨i, hi, j, hj, r, hr, rfl⟩
    exact ⟨i, j, r, hi, hj, hr, rfl⟩
  · rintro ⟨i, j, r, hi, hj, hr, rfl⟩
    exact ⟨i, hi, j, hj, r, hr, rfl⟩

theorem points_cell {cells : ℕ → Option Place} {nx ny q : ℕ} {r : Place} (hq : q < nx * ny) (hr : cells q = some r) :
    ∃ a ∈ points cells nx ny, a.toPlace = r := by
  have hn : 0 < nx := Nat.pos_of_ne_zero (by rintro rfl; omega)
  refine ⟨⟨r, (q % nx : ℕ), (q / nx : ℕ)⟩, mem_points.2 ⟨q % nx, q / nx, r, Nat.mod_lt _ hn, ?_, ?_, rfl⟩, rfl⟩
  · rw [Nat.div_lt_iff_lt_mul hn, Nat.mul_comm]; exact hq
  · rw [Nat.mul_comm, Nat.mod_add_div]; exact hr

theorem cell_lt {nx ny i j : ℕ} (hi : i < nx) (hj : j < ny) : i + j * nx < nx * ny := by
  calc i + j * nx < nx + j * nx := by omega
    _ = (j + 1) * nx := by ring
    _ ≤ ny * nx := Nat.mul_le_mul_right _ hj
    _ = nx * ny := Nat.mul_comm _ _

theorem nearest_of {cells : ℕ → Option Place} {nx ny : ℕ} {p : Place} {roi : ℝ} {m c : ℤ × ℤ} (h : IsNearest (points cells nx ny) p roi m c) :
    NearestCell cells nx ny (fun α => α < roi) m p c := by
  rcases h with ⟨h1, h2⟩ | ⟨a, ha, hc, hr, hmin⟩
  · refine .inl ⟨h1, fun q r hq hr => ?_⟩
    obtain ⟨a, ha, rfl⟩ := points_cell hq hr
    exact not_lt.2 (h2 a ha)
  · obtain ⟨i, j, r, hi, hj, hcell, rfl⟩ := mem_points.1 ha
    refine .inr ⟨i, j, r, hi, hj, hcell, hc, hr, fun q r' hq hr' => ?_⟩
    obtain ⟨b, hb, rfl⟩ := points_cell hq hr'
    exact hmin b hb

/-- The place of a cell is the one of the coordinates at its position. -/
theorem placeOf_iff {lon lat : List F} {q : ℕ} {r : Place} :
    placeOf lon lat q = some r ↔ ∃ la lo, lat.getD q none = some la ∧ lon.getD q none = some lo ∧ r = degrees la lo := by
  unfold placeOf degToRad degrees
  cases lat.getD q none <;> cases lon.getD q none <;> simp [eq_comm]

/-- What is expected for a target: the nearest cell if both coordinates are numbers and the latitude is one, `missing` if one is no number. -/
def Expected (cells : ℕ → Option Place) (nx ny : ℕ) (near : ℝ → Prop) (missing : ℤ × ℤ) (t : F × F) (c : ℤ × ℤ) : Prop :=
  (∀ la lo, t = (some la, some lo) → -90 ≤ la → la ≤ 90 → NearestCell cells nx ny near missing (degrees la lo) c) ∧
  (t.1 = none ∨ t.2 = none → c = missing)

/-- **C103.** The nearest cells of all targets, for any order of the points sorted by latitude.  The distance of interest is the largest angle `d` from
one of the cells looked at to the next one, times 1.414. -/
theorem C103_translate {lon lat : List F} {nx ny : ℕ} (hlon : nx * ny ≤ lon.length) (hlat : nx * ny ≤ lat.length)
    (hv : ∀ q la, q < nx * ny → lat.getD q none = some la → -90 ≤ la ∧ la ≤ 90)
    (h1 : ∃ s p, Sampled (nx * ny) s ∧ placeOf lon lat s = some p)
    (h2 : ∀ s p, Sampled (nx * ny) s → placeOf lon lat s = some p → ∃ r, Other (placeOf lon lat) (nx * ny) s r)
    {sorted : List Point} (hperm : sorted.Perm (points (placeOf lon lat) nx ny)) (hs : sorted.Pairwise fun a b => a.lat ≤ b.lat)
    (targets : List (F × F)) :
    ∃ s d cs, Sampled (nx * ny) s ∧ NextAt (placeOf lon lat) (nx * ny) s d ∧
      (∀ s' d', Sampled (nx * ny) s' → NextAt (placeOf lon lat) (nx * ny) s' d' → d' ≤ d) ∧
      fastTranslate lon lat nx ny sorted targets = .ok cs ∧
      List.Forall₂ (Expected (placeOf lon lat) nx ny (fun α => α < min (d * 1.414) π) (-1, -1)) targets cs := by
  obtain ⟨s, d, hsa, hd, he, hmax⟩ := C103_distance h1 h2
  have hd0 : 0 ≤ d := by
    obtain ⟨p, r, -, -, e, -⟩ := hd
    rw [e]
    exact angle_nonneg _ _
  have hroi0 : 0 ≤ min (d * 1.414) π := le_min (by positivity) pi_pos.le
  have hroi1 : min (d * 1.414) π ≤ π := min_le_right _ _
  generalize hroi : min (d * 1.414) π = roi at *
  refine ⟨s, d, targets.map fun t => search sorted (some (cos roi)) t, hsa, hd, hmax, ?_, ?_⟩
  · unfold fastTranslate
    rw [if_neg (by omega), he]
    rfl
  · rw [List.forall₂_map_right_iff]
    refine List.forall₂_same.2 fun t _ => ⟨?_, fun h => C103_nan h⟩
    rintro la lo rfl hla hla'
    subst hroi
    refine nearest_of (C103_search hperm hs ?_ hroi0 hroi1 hla hla')
    intro a ha
    obtain ⟨i, j, r, hi, hj, hr, rfl⟩ := mem_points.1 ha
    obtain ⟨la', lo', e1, -, rfl⟩ := placeOf_iff.1 hr
    obtain ⟨b1, b2⟩ := hv _ la' (cell_lt hi hj) e1
    exact degrees_valid b1 b2

theorem angle_self (p : Place) : angle p p = 0 := by
  unfold angle
  rw [unit, arccos_one]

/-- **C103.** A target at a known cell finds that place. -/
theorem C103_on_cell {cells : ℕ → Option Place} {nx ny : ℕ} {near : ℝ → Prop} {m c : ℤ × ℤ} {q : ℕ} {p : Place} (h0 : near 0) (hq : q < nx * ny)
    (hp : cells q = some p) (h : NearestCell cells nx ny near m p c) :
    ∃ i j r, i < nx ∧ j < ny ∧ cells (i + j * nx) = some r ∧ c = ((i : ℤ), (j : ℤ)) ∧ angle r p = 0 := by
  rcases h with ⟨-, h⟩ | ⟨i, j, r, hi, hj, hr, hc, -, hmin⟩
  · exact absurd (by rw [angle_self]; exact h0) (h q p hq hp)
  · refine ⟨i, j, r, hi, hj, hr, hc, le_antisymm ?_ (angle_nonneg _ _)⟩
    have := hmin q p hq hp
    rwa [angle_self] at this

/-! ## The search with a tree -/

/-- What is expected of the tree: exactly the points at a distance less than the radius, the nearest first. -/
def TreeOK (tree : Tree) : Prop := ∀ pts v r2,
  (∀ i d, (i, d) ∈ tree pts v r2 ↔ ∃ w, pts[i]? = some (some w) ∧ d = dist2 v w ∧ d < r2) ∧ (tree pts v r2).Pairwise fun a b => a.2 ≤ b.2

/-- The length of the straight line between two places on the unit sphere at the angle `α`. -/
noncomputable def chord (α : ℝ) : ℝ := 2 * sin (α / 2)

theorem dist2_chord (a b : Place) : dist2 (vec a) (vec b) = chord (angle b a) * chord (angle b a) ∧ 0 ≤ chord (angle b a) := by
  have hpi := angle_le_pi b a
  have h0 := angle_nonneg b a
  refine ⟨?_, ?_⟩
  · rw [dist2_eq, ← cos_angle, angle_comm a b]
    unfold chord
    have h1 := cos_two_mul (angle b a / 2)
    rw [mul_div_cancel₀ _ (two_ne_zero)] at h1
    have h2 := sin_sq_add_cos_sq (angle b a / 2)
    nlinarith
  · unfold chord
    have := sin_nonneg_of_nonneg_of_le_pi (x := angle b a / 2) (by linarith) (by linarith)
    linarith

theorem dist2_comm (a b : Vec) : dist2 a b = dist2 b a := by
  unfold dist2
  ring

/-- **C103.** The search with the tree gives the nearest known cell with a straight line to it shorter than the radius. -/
theorem C103_kd {tree : Tree} (ht : TreeOK tree) {cells : ℕ → Option Place} {nx ny : ℕ} {radius : ℝ} (hr : 0 ≤ radius) (t : F × F) :
    (∀ la lo, t = (some la, some lo) →
      NearestCell cells nx ny (fun α => chord α < radius) (-1000, -1000) (degrees la lo) (kdSearch tree cells nx ny radius t)) ∧
    (t.1 = none ∨ t.2 = none → kdSearch tree cells nx ny radius t = (-1000, -1000)) := by
  refine ⟨?_, ?_⟩
  · rintro la lo rfl
    have e : target (degToRad (some la), degToRad (some lo)) = some (degrees la lo) := rfl
    unfold kdSearch
    dsimp only
    rw [e]
    dsimp only
    generalize degrees la lo = p
    obtain ⟨hm, hs⟩ := ht (cloud cells (nx * ny)) (vec p) (radius * radius)
    have hcloud : ∀ i w, (cloud cells (nx * ny))[i]? = some (some w) ↔ i < nx * ny ∧ ∃ r, cells i = some r ∧ vec r = w := by
      intro i w
      unfold cloud
      by_cases hi : i < nx * ny
      · simp [hi]
      · simp [hi]
    have hnear : ∀ r, chord (angle r p) < radius ↔ dist2 (vec p) (vec r) < radius * radius := by
      intro r
      obtain ⟨h1, h2⟩ := dist2_chord p r
      rw [h1]
      exact (mul_self_lt_mul_self_iff h2 hr)
    cases hl : tree (cloud cells (nx * ny)) (vec p) (radius * radius) with
    | nil =>
      dsimp only
      refine .inl ⟨rfl, fun q r hq hcr hc => ?_⟩
      have := (hm q (dist2 (vec p) (vec r))).2 ⟨vec r, (hcloud q _).2 ⟨hq, r, hcr, rfl⟩, rfl, (hnear r).1 hc⟩
      rw [hl] at this
      cases this
    | cons a l =>
      obtain ⟨pos, d⟩ := a
      dsimp only
      obtain ⟨w, hw, hd, hlt⟩ := (hm pos d).1 (by rw [hl]; simp)
      obtain ⟨hpos, r, hcr, rfl⟩ := (hcloud pos w).1 hw
      have hn : 0 < nx := Nat.pos_of_ne_zero (by rintro rfl; omega)
      refine .inr ⟨pos % nx, pos / nx, r, Nat.mod_lt _ hn, ?_, ?_, rfl, (hnear r).2 (by rw [← hd]; exact hlt), ?_⟩
      · rw [Nat.div_lt_iff_lt_mul hn, Nat.mul_comm]; exact hpos
      · rw [Nat.mul_comm, Nat.mod_add_div]; exact hcr
      · intro q r' hq hcr'
        have hle : dist2 (vec p) (vec r) ≤ dist2 (vec p) (vec r') := by
          by_cases hc : dist2 (vec p) (vec r') < radius * radius
          · have hin := (hm q (dist2 (vec p) (vec r'))).2 ⟨vec r', (hcloud q _).2 ⟨hq, r', hcr', rfl⟩, rfl, hc⟩
            rw [hl] at hin hs
            rw [← hd]
            rcases List.mem_cons.1 hin with h | h
            · cases h
              exact le_rfl
            · exact (List.pairwise_cons.1 hs).1 _ h
          · rw [← hd]
            exact hlt.le.trans (not_lt.1 hc)
        rw [angle_le_iff]
        rw [dist2_comm, dist2_eq, dist2_comm, dist2_eq] at hle
        linarith
  · intro h
    have e : target (degToRad t.1, degToRad t.2) = none := by
      rcases t with ⟨_ | a, _ | b⟩
      · rfl
      · rfl
      · rfl
      · simp at h
    unfold kdSearch
    rw [e]

/-- The largest step between neighbours on one of the axes. -/
def LargestStep (xs ys : List ℝ) (d : ℝ) : Prop :=
  (∀ l, l = xs ∨ l = ys → ∀ i a b, l[i]? = some a → l[i + 1]? = some b → |b - a| ≤ d) ∧
  (d = 0 ∨ ∃ l, (l = xs ∨ l = ys) ∧ ∃ i a b, l[i]? = some a ∧ l[i + 1]? = some b ∧ d = |b - a|)

theorem maxStep_spec : ∀ (l : List ℝ) (m : ℝ), m ≤ maxStep l m ∧ (∀ i a b, l[i]? = some a → l[i + 1]? = some b → |b - a| ≤ maxStep l m) ∧
    (maxStep l m = m ∨ ∃ i a b, l[i]? = some a ∧ l[i + 1]? = some b ∧ maxStep l m = |b - a|)
  | [], m => ⟨le_rfl, by simp, .inl rfl⟩
  | [x], m => ⟨le_rfl, by simp, .inl rfl⟩
  | x :: y :: l, m => by
    obtain ⟨h1, h2, h3⟩ := maxStep_spec (y :: l) (max |y - x| m)
    unfold maxStep
    refine ⟨(le_max_right _ _).trans h1, ?_, ?_⟩
    · intro i a b ha hb
      cases i with
      | zero =>
        simp only [List.getElem?_cons_zero, Option.some.injEq] at ha
        simp only [List.getElem?_cons_succ, List.getElem?_cons_zero, Option.some.injEq] at hb
        subst ha hb
        exact (le_max_left _ _).trans h1
      | succ i => exact h2 i a b (by simpa using ha) (by simpa using hb)
    · rcases h3 with h3 | ⟨i, a, b, ha, hb, h3⟩
      · rw [h3]
        rcases max_choice |y - x| m with h | h
        · exact .inr ⟨0, x, y, rfl, rfl, h⟩
        · exact .inl h
      · exact .inr ⟨i + 1, a, b, by simpa using ha, by simpa using hb, h3⟩

/-- **C103.** The distance of the search with the tree: the one given, or the largest step of the new axes. -/
theorem C103_max_distance (given : ℝ) (xs ys : List ℝ) :
    (given > 0 → maxDistance given xs ys = given) ∧ (given ≤ 0 → LargestStep xs ys (maxDistance given xs ys)) := by
  unfold maxDistance
  refine ⟨fun h => if_pos h, fun h => ?_⟩
  rw [if_neg (not_lt.2 h)]
  obtain ⟨a1, a2, a3⟩ := maxStep_spec xs 0
  obtain ⟨b1, b2, b3⟩ := maxStep_spec ys (maxStep xs 0)
  refine ⟨?_, ?_⟩
  · rintro l (rfl | rfl) i a b ha hb
    · exact (a2 i a b ha hb).trans b1
    · exact b2 i a b ha hb
  · rcases b3 with b3 | b3
    · rw [b3]
      rcases a3 with a3 | a3
      · exact .inl a3
      · exact .inr ⟨xs, .inl rfl, a3⟩
    · exact .inr ⟨ys, .inr rfl, b3⟩

theorem maxDistance_nonneg (given : ℝ) (xs ys : List ℝ) : 0 ≤ maxDistance given xs ys := by
  unfold maxDistance
  split
  · next h => exact le_of_lt h
  · exact (maxStep_spec xs 0).1.trans (maxStep_spec ys _).1

/-- **C103.** The nearest cells of all targets by the search with the tree, for a new grid in metres: nearer than the distance on a straight line.
For a new grid in degrees see `C103_kd_degrees`. -/
theorem C103_kd_translate_partial {tree : Tree} (ht : TreeOK tree) {earth : ℝ} (he : 0 < earth) {lon lat : List F} {nx ny : ℕ}
    (hlon : nx * ny ≤ lon.length) (hlat : nx * ny ≤ lat.length) (given : ℝ) (xs ys : List ℝ) (targets : List (F × F)) :
    ∃ cs, kdTranslate tree earth lon lat nx ny given xs ys false targets = .ok cs ∧
      List.Forall₂ (Expected (placeOf lon lat) nx ny (fun α => earth * chord α < maxDistance given xs ys) (-1000, -1000)) targets cs := by
  refine ⟨targets.map fun t => kdSearch tree (placeOf lon lat) nx ny (maxDistance given xs ys / earth) t, ?_, ?_⟩
  · unfold kdTranslate
    rw [if_neg (by omega)]
    rfl
  · rw [List.forall₂_map_right_iff]
    refine List.forall₂_same.2 fun t _ => ?_
    obtain ⟨h1, h2⟩ := C103_kd ht (cells := placeOf lon lat) (nx := nx) (ny := ny)
      (div_nonneg (maxDistance_nonneg given xs ys) he.le) t
    have e : (fun α => earth * chord α < maxDistance given xs ys) = fun α => chord α < maxDistance given xs ys / earth := by
      funext α
      rw [lt_div_iff₀' he]
    rw [e]
    exact ⟨fun la lo ht _ _ => h1 la lo ht, h2⟩

theorem chord_le_two (α : ℝ) : chord α ≤ 2 := by
  unfold chord
  linarith [sin_le_one (α / 2)]

/-- **C103, violated.** On a new grid in degrees the distance is not converted to radians: with a largest step of more than 2 degrees, or a distance of
more than 2 metres given, every target finds a cell, however far the known cells are. -/
theorem C103_kd_degrees {tree : Tree} (ht : TreeOK tree) {earth : ℝ} (he : 0 < earth) {lon lat : List F} {nx ny : ℕ}
    (hlon : nx * ny ≤ lon.length) (hlat : nx * ny ≤ lat.length) {given : ℝ} {xs ys : List ℝ} (hd : 2 < maxDistance given xs ys)
    {q : ℕ} {r : Place} (hq : q < nx * ny) (hr : placeOf lon lat q = some r) {targets : List (F × F)} {la lo : ℝ} {i : ℕ}
    (hi : targets[i]? = some (some la, some lo)) :
    ∃ cs c x y, kdTranslate tree earth lon lat nx ny given xs ys true targets = .ok cs ∧ cs[i]? = some c ∧ x < nx ∧ y < ny ∧
      c = ((x : ℤ), (y : ℤ)) := by
  refine ⟨targets.map fun t => kdSearch tree (placeOf lon lat) nx ny (maxDistance given xs ys * earth / earth) t,
    kdSearch tree (placeOf lon lat) nx ny (maxDistance given xs ys * earth / earth) (some la, some lo), ?_⟩
  have hdiv : maxDistance given xs ys * earth / earth = maxDistance given xs ys := by field_simp
  have h := (C103_kd ht (cells := placeOf lon lat) (nx := nx) (ny := ny) (maxDistance_nonneg given xs ys) (some la, some lo)).1 la lo rfl
  rw [hdiv]
  rcases h with ⟨-, h⟩ | ⟨x, y, r', hx, hy, -, hc, -⟩
  · exact absurd ((chord_le_two _).trans_lt hd) (h q r hq hr)
  · refine ⟨x, y, ?_, by simp [hi], hx, hy, hc⟩
    unfold kdTranslate
    rw [if_neg (by omega)]
    dsimp only
    rw [if_pos rfl, hdiv]

/-- **C103.** Where both searches find a cell, the cells are equally near. -/
theorem C103_methods_agree {cells : ℕ → Option Place} {nx ny : ℕ} {near near' : ℝ → Prop} {m m' c c' : ℤ × ℤ} {p : Place}
    (h : NearestCell cells nx ny near m p c) (h' : NearestCell cells nx ny near' m' p c') (hc : c ≠ m) (hc' : c' ≠ m') :
    ∃ (i j i' j' : ℕ) (r r' : Place), c = ((i : ℤ), (j : ℤ)) ∧ c' = ((i' : ℤ), (j' : ℤ)) ∧ cells (i + j * nx) = some r ∧ cells (i' + j' * nx) = some r' ∧
      angle r p = angle r' p := by
  rcases h with ⟨h, -⟩ | ⟨i, j, r, hi, hj, hr, e, -, hmin⟩
  · exact absurd h hc
  rcases h' with ⟨h', -⟩ | ⟨i', j', r', hi', hj', hr', e', -, hmin'⟩
  · exact absurd h' hc'
  exact ⟨i, j, i', j', r, r', e, e', hr, hr', le_antisymm (hmin _ _ (cell_lt hi' hj') hr') (hmin' _ _ (cell_lt hi hj) hr)⟩

/-! ## Values at the cells -/

open Interp in
/-- **C103.** The values taken for a target: those of the cell, on all levels, and undefined where no cell was found. -/
theorem C103_value {infield : List F} {nx ny nz : ℕ} (hl : infield.length = nx * ny * nz) (hsize : nx * ny * nz < 2 ^ 31) (hx : nx < 2 ^ 31)
    (hy : ny < 2 ^ 31) (hx0 : 0 < nx) (hy0 : 0 < ny) {cells : ℕ → Option Place} {near : ℝ → Prop} {m c : ℤ × ℤ} {p : Place}
    (hm : m = (-1, -1) ∨ m = (-1000, -1000)) (h : NearestCell cells nx ny near m p c) :
    (c = m ∧ getValues infield (c.1 : ℝ) (c.2 : ℝ) nx ny nz = .ok (List.replicate nz none)) ∨
    ∃ i j, i < nx ∧ j < ny ∧ c = ((i : ℤ), (j : ℤ)) ∧
      getValues infield (c.1 : ℝ) (c.2 : ℝ) nx ny nz = .ok ((List.range nz).map fun z => infield.getD ((z * ny + j) * nx + i) none) := by
  rcases h with ⟨rfl, -⟩ | ⟨i, j, r, hi, hj, -, rfl, -, -⟩
  · left
    refine ⟨rfl, ?_⟩
    have hr : IntRange (c.1 : ℝ) ∧ IntRange (c.2 : ℝ) ∧ ¬ Near nx (c.1 : ℝ) := by
      unfold IntRange Near
      rcases hm with rfl | rfl <;> norm_num
    rw [C33_nearest_neighbour infield nx ny nz _ _ hl hsize hr.1 hr.2.1 hx0 hy0]
    congr 1
    rw [List.map_congr_left (g := fun _ => none) (fun z _ => if_neg (fun h => hr.2.2 h.1))]
    simp
  · right
    refine ⟨i, j, hi, hj, rfl, ?_⟩
    dsimp only
    have hnear : ∀ {k n : ℕ}, k < n → Near n ((k : ℤ) : ℝ) := by
      intro k n hk
      unfold Near
      have h1 : (k : ℝ) + 1 ≤ n := by exact_mod_cast hk
      have h0 : (0 : ℝ) ≤ k := Nat.cast_nonneg k
      push_cast
      constructor <;> linarith
    have hrange : ∀ {k n : ℕ}, k < n → n < 2 ^ 31 → IntRange ((k : ℤ) : ℝ) := by
      intro k n hk hn
      unfold IntRange
      have h1 : (k : ℝ) + 1 < 2 ^ 31 := by exact_mod_cast (by omega : k + 1 < 2 ^ 31)
      have h0 : (0 : ℝ) ≤ k := Nat.cast_nonneg k
      push_cast
      constructor <;> linarith
    have hfl : ∀ k : ℕ, ⌊((k : ℤ) : ℝ) + 1 / 2⌋.toNat = k := by
      intro k
      have : ⌊((k : ℤ) : ℝ) + 1 / 2⌋ = (k : ℤ) := by
        rw [Int.floor_eq_iff]
        constructor <;> linarith
      rw [this]
      simp
    rw [C33_nearest_neighbour infield nx ny nz _ _ hl hsize (hrange hi hx) (hrange hj hy) hx0 hy0]
    congr 1
    refine List.map_congr_left fun z _ => ?_
    rw [if_pos ⟨hnear hi, hnear hj⟩, hfl, hfl]
    rfl

/-! ## Cases -/

/-- There are trees as expected: all points in the order of their distances. -/
noncomputable def sortedTree : Tree := fun pts v r2 =>
  (((List.range pts.length).filterMap fun i => (pts.getD i none).bind fun w => if dist2 v w < r2 then some (i, dist2 v w) else none)).mergeSort
    fun a b => decide (a.2 ≤ b.2)

example : TreeOK sortedTree := by
  intro pts v r2
  unfold sortedTree
  refine ⟨fun i d => ?_, ?_⟩
  · rw [List.mem_mergeSort]
    simp only [List.mem_filterMap, List.mem_range, Option.bind_eq_some_iff]
    constructor
    · rintro ⟨k, hk, w, hw, h⟩
      split at h
      · next hlt =>
        cases h
        refine ⟨w, ?_, rfl, hlt⟩
        rw [List.getD_eq_getElem?_getD] at hw
        rw [List.getElem?_eq_getElem hk] at hw ⊢
        simpa using hw
      · cases h
    · rintro ⟨w, hw, rfl, hlt⟩
      obtain ⟨hk, -⟩ := List.getElem?_eq_some_iff.1 hw
      exact ⟨i, hk, w, by rw [List.getD_eq_getElem?_getD, hw]; rfl, by rw [if_pos hlt]⟩
  · have := List.pairwise_mergeSort (le := fun a b : ℕ × ℝ => decide (a.2 ≤ b.2)) (fun a b c h1 h2 => by simp at *; linarith)
      (fun a b => by simpa using le_total a.2 b.2)
      ((List.range pts.length).filterMap fun i => (pts.getD i none).bind fun w => if dist2 v w < r2 then some (i, dist2 v w) else none)
    simpa using this

/-- Two cells on the equator, a quarter of a turn apart, and one that is not known. -/
def lons : List F := [some 0, some 90, none]
def lats : List F := [some 0, some 0, some 45]

theorem case_place {q : ℕ} {r : Place} : placeOf lons lats q = some r ↔ q = 0 ∧ r = degrees 0 0 ∨ q = 1 ∧ r = degrees 0 90 := by
  rw [placeOf_iff]
  rcases q with _ | _ | _ | q <;> simp [lons, lats, eq_comm]

theorem case_angle : angle (degrees 0 0) (degrees 0 90) = π / 2 := by
  unfold angle vec degrees
  have : (90 : ℝ) * (π / 180) = π / 2 := by ring
  simp [this]

/-- Their distance is a quarter of a turn, and a target at the first one finds it. -/
example : ∃ sorted : List Point, sorted.Perm (points (placeOf lons lats) 3 1) ∧ (sorted.Pairwise fun a b => a.lat ≤ b.lat) ∧
    fastTranslate lons lats 3 1 sorted [(some 0, some 0), (some 0, none)] = .ok [(0, 0), (-1, -1)] := by
  let le := fun a b : Point => decide (a.lat ≤ b.lat)
  have hperm := List.mergeSort_perm (points (placeOf lons lats) 3 1) le
  have hsort := List.pairwise_mergeSort (le := le) (fun a b c h1 h2 => by simp [le] at *; linarith) (fun a b => by simpa [le] using le_total a.lat b.lat)
    (points (placeOf lons lats) 3 1)
  have hs : ((points (placeOf lons lats) 3 1).mergeSort le).Pairwise fun a b => a.lat ≤ b.lat := by simpa [le] using hsort
  refine ⟨_, hperm, hs, ?_⟩
  have o1 : Other (placeOf lons lats) (3 * 1) 0 (degrees 0 90) := ⟨1, by omega, by omega, case_place.2 (.inr ⟨rfl, rfl⟩)⟩
  have o0 : Other (placeOf lons lats) (3 * 1) 1 (degrees 0 0) := ⟨0, by omega, by omega, case_place.2 (.inl ⟨rfl, rfl⟩)⟩
  obtain ⟨s, d, cs, hsa, hd, hmax, he, hf⟩ := C103_translate (lon := lons) (lat := lats) (nx := 3) (ny := 1) (by simp [lons]) (by simp [lats])
    (by
      intro q la hq h
      rcases q with _ | _ | _ | q
      · simp [lats] at h; subst h; norm_num
      · simp [lats] at h; subst h; norm_num
      · simp [lats] at h; subst h; norm_num
      · omega)
    ⟨0, degrees 0 0, .inl ⟨by omega, by omega⟩, case_place.2 (.inl ⟨rfl, rfl⟩)⟩
    (by
      intro s p _ hp
      rcases case_place.1 hp with ⟨rfl, -⟩ | ⟨rfl, -⟩
      · exact ⟨_, o1⟩
      · exact ⟨_, o0⟩)
    hperm hs [(some 0, some 0), (some 0, none)]
  rw [he]
  have hd1 : NextAt (placeOf lons lats) (3 * 1) 0 (π / 2) := by
    refine ⟨_, _, case_place.2 (.inl ⟨rfl, rfl⟩), o1, case_angle.symm, ?_⟩
    rintro r' ⟨q, hq, hne, hr'⟩
    rcases case_place.1 hr' with ⟨rfl, -⟩ | ⟨-, rfl⟩
    · exact absurd rfl hne
    · exact case_angle.ge
  have hdpos : 0 < d := (by positivity : (0 : ℝ) < π / 2).trans_le (hmax 0 _ (.inl ⟨by omega, by omega⟩) hd1)
  rcases cs with _ | ⟨c, _ | ⟨c', _ | ⟨c'', l⟩⟩⟩
  · cases hf
  · obtain ⟨-, h⟩ := List.forall₂_cons.1 hf; cases h
  · obtain ⟨h1, h2⟩ := List.forall₂_cons.1 hf
    obtain ⟨h2, -⟩ := List.forall₂_cons.1 h2
    have hc' := h2.2 (.inr rfl)
    have hn := h1.1 0 0 rfl (by norm_num) (by norm_num)
    obtain ⟨i, j, r, hi, hj, hr, hc, ha⟩ := C103_on_cell (by exact lt_min (by positivity) pi_pos) (by omega : 0 < 3 * 1) (case_place.2 (.inl ⟨rfl, rfl⟩)) hn
    have hj0 : j = 0 := by omega
    subst hj0
    rcases case_place.1 hr with ⟨hi0, -⟩ | ⟨hi1, rfl⟩
    · have hi0 : i = 0 := by omega
      subst hi0
      rw [hc, hc']
      rfl
    · rw [angle_comm, case_angle] at ha
      linarith [pi_pos]
  · obtain ⟨-, h⟩ := List.forall₂_cons.1 hf
    obtain ⟨-, h⟩ := List.forall₂_cons.1 h
    cases h

/-- **C103, violated.** With steps of 3 degrees, the antipode finds the only known cell. -/
theorem C103_antipode {tree : Tree} (ht : TreeOK tree) : kdTranslate tree 6371000 [some 0] [some 0] 1 1 0 [180, 183] [0] true [(some 0, some 180)] =
    .ok [(0, 0)] ∧ angle (degrees 0 0) (degrees 0 180) = π := by
  refine ⟨?_, ?_⟩
  · have hm : maxDistance 0 [180, 183] [0] = 3 := by
      simp [maxDistance, maxStep]; norm_num
    obtain ⟨cs, c, x, y, h1, h2, hx, hy, rfl⟩ := C103_kd_degrees ht (earth := 6371000) (by norm_num) (lon := [some 0]) (lat := [some 0]) (nx := 1) (ny := 1)
      (by simp) (by simp) (given := 0) (xs := [180, 183]) (ys := [0]) (by rw [hm]; norm_num) (q := 0) (by simp)
      (placeOf_iff.2 ⟨0, 0, rfl, rfl, rfl⟩) (targets := [(some 0, some 180)]) (la := 0) (lo := 180) (i := 0) rfl
    rw [h1]
    unfold kdTranslate at h1
    rw [if_neg (by simp)] at h1
    have hx0 : x = 0 := by omega
    have hy0 : y = 0 := by omega
    subst hx0 hy0
    cases h1
    simp at h2
    simpa using h2
  · unfold angle vec degrees
    have : (180 : ℝ) * (π / 180) = π := by ring
    simp [this]

end Fimex.Nearest
