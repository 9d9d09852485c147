import Verif.CoordSys.SectionModel
import Verif.Cdm.Lemmas
import Mathlib.Tactic.Linarith
import Mathlib.Tactic.FieldSimp
import Mathlib.Tactic.Ring
import Mathlib.Tactic.Push
import Mathlib.Data.Rat.Floor

/-!
# Cross sections: C104
-/

namespace Fimex.Sections

open Cdm

section Points

variable {K : Type} [Field K] [LinearOrder K] [IsStrictOrderedRing K] [FloorRing K]

/-! ## What is expected of the points -/

/-- The point at the fraction `t` of the straight line from `p` to `q`. -/
def between (p q : K × K) (t : K) : K × K := ((1 - t) * p.1 + t * q.1, (1 - t) * p.2 + t * q.2)

/-- The length of a line in cells of the grid, in the direction in which it has more cells. -/
def cells (dx dy : K) (p q : K × K) : K := max (|q.1 - p.1| / |dx|) (|q.2 - p.2| / |dy|)

/-- Points of one leg, without its begin: equal steps on a straight line in the projection, as many as there are with steps of at least one cell,
but at least one. -/
def IsLeg (f g : K × K → K × K) (dx dy : K) (a b : K × K) (ps : List (K × K)) : Prop :=
  ∃ n : ℕ, 1 ≤ n ∧ ps = (List.range n).map (fun j : ℕ => g (between (f a) (f b) ((j + 1) / n))) ∧
    (1 < n → (n : K) ≤ cells dx dy (f a) (f b)) ∧ ∀ k : ℕ, (k : K) ≤ cells dx dy (f a) (f b) → k ≤ n

/-- Points of all legs. -/
inductive IsLegs (f g : K × K → K × K) (dx dy : K) : K × K → List (K × K) → List (K × K) → Prop
  | nil (a) : IsLegs f g dx dy a [] []
  | cons {a b l ps qs} : IsLeg f g dx dy a b ps → IsLegs f g dx dy b l qs → IsLegs f g dx dy a (b :: l) (ps ++ qs)

/-- Points of a cross section: the only coordinate, or the first one followed by the legs. -/
def IsSection (f g : K × K → K × K) (dx dy : K) : List (K × K) → List (K × K) → Prop
  | [], ps => ps = []
  | [a], ps => ps = [a]
  | a :: l, ps => ∃ qs, ps = g (f a) :: qs ∧ IsLegs f g dx dy a l qs

/-- The projection converts point by point. -/
def Conv.By (conv : Conv K) (f g : K × K → K × K) : Prop :=
  (∀ l, conv.fromLonLat l = .ok (l.map f)) ∧ ∀ l, conv.toLonLat l = .ok (l.map g)

/-- The legs are shorter than 2^64 cells. -/
def Short (f : K × K → K × K) (dx dy : K) (coords : List (K × K)) : Prop := coords.IsChain fun a b => cells dx dy (f a) (f b) < 2 ^ 64

/-! ## The points -/

omit [FloorRing K] in
theorem cells_eq (dx dy : K) (p q : K × K) : max |(q.1 - p.1) / dx| |(q.2 - p.2) / dy| = cells dx dy p q := by
  unfold cells
  rw [abs_div, abs_div]

omit [FloorRing K] in
theorem cells_nonneg (dx dy : K) (p q : K × K) : 0 ≤ cells dx dy p q := by
  rw [← cells_eq]
  exact (abs_nonneg _).trans (le_max_left _ _)

theorem legNum_ok {dx dy : K} {p q : K × K} (h : cells dx dy p q < 2 ^ 64) : legNum dx dy p q = .ok ⌊cells dx dy p q⌋.toNat := by
  unfold legNum
  rw [cells_eq]
  dsimp only
  rw [if_pos]
  have : (⌊cells dx dy p q⌋ : K) < 2 ^ 64 := (Int.floor_le _).trans_lt h
  exact_mod_cast this

omit [FloorRing K] in
theorem legPart_eq (first : Bool) (p q : K × K) (num : ℕ) :
    legPart first p q num = (if first then [p] else []) ++ (List.range (max num 1)).map fun j : ℕ => between p q ((j + 1) / (max num 1 : ℕ)) := by
  unfold legPart
  rw [List.append_assoc]
  congr 1
  obtain ⟨m, hm⟩ : ∃ m, max num 1 = m + 1 := ⟨max num 1 - 1, by omega⟩
  rw [hm, List.range_succ, List.map_append]
  have h1 : num - 1 = m := by omega
  have hne : ((m + 1 : ℕ) : K) ≠ 0 := by exact_mod_cast Nat.succ_ne_zero m
  rw [h1]
  congr 1
  · rw [List.range'_eq_map_range, List.map_map]
    refine List.map_congr_left fun j hj => ?_
    have hj := List.mem_range.1 hj
    have hnum : num = m + 1 := by omega
    rw [hnum]
    unfold between
    simp only [Function.comp]
    push_cast at hne ⊢
    ext
    · field_simp; ring
    · field_simp; ring
  · unfold between
    push_cast at hne ⊢
    simp [hne]

theorem leg_ok {conv : Conv K} {f g : K × K → K × K} (hc : conv.By f g) {dx dy : K} (first : Bool) (a b : K × K)
    (h : cells dx dy (f a) (f b) < 2 ^ 64) :
    ∃ ps, leg conv dx dy first a b = .ok ((if first then [g (f a)] else []) ++ ps) ∧ IsLeg f g dx dy a b ps := by
  unfold leg
  rw [hc.1, Res.ok_bind]
  simp only [List.map_cons, List.map_nil]
  rw [legNum_ok h, Res.ok_bind, hc.2, legPart_eq, List.map_append]
  refine ⟨_, by congr 2; cases first <;> rfl, ?_⟩
  unfold IsLeg
  have h0 := cells_nonneg dx dy (f a) (f b)
  generalize cells dx dy (f a) (f b) = m at *
  have hfl : (0 : ℤ) ≤ ⌊m⌋ := Int.floor_nonneg.2 h0
  have hcast : ((⌊m⌋.toNat : ℕ) : K) = (⌊m⌋ : K) := by
    have : ((⌊m⌋.toNat : ℕ) : ℤ) = ⌊m⌋ := Int.toNat_of_nonneg hfl
    exact_mod_cast congrArg (Int.cast (R := K)) this
  refine ⟨max ⌊m⌋.toNat 1, le_max_right _ _, by rw [List.map_map]; rfl, ?_, ?_⟩
  · intro hn
    have : max ⌊m⌋.toNat 1 = ⌊m⌋.toNat := by omega
    rw [this, hcast]
    exact Int.floor_le m
  · intro k hk
    have : (k : ℤ) ≤ ⌊m⌋ := Int.le_floor.2 (by exact_mod_cast hk)
    omega

theorem legs_ok {conv : Conv K} {f g : K × K → K × K} (hc : conv.By f g) {dx dy : K} : ∀ (l : List (K × K)) (first : Bool) (a : K × K),
    Short f dx dy (a :: l) →
    ∃ ps, legs conv dx dy first a l = .ok ((if first ∧ l ≠ [] then [g (f a)] else []) ++ ps) ∧ IsLegs f g dx dy a l ps
  | [], first, a, _ => ⟨[], by simp [legs], .nil a⟩
  | b :: l, first, a, h => by
    obtain ⟨h1, h2⟩ := List.isChain_cons_cons.1 h
    obtain ⟨ps, e1, e2⟩ := leg_ok hc first a b h1
    obtain ⟨qs, e3, e4⟩ := legs_ok hc l false b h2
    unfold legs
    rw [e1, Res.ok_bind, e3, Res.ok_bind]
    refine ⟨ps ++ qs, ?_, .cons e2 e4⟩
    simp

theorem section_ok {conv : Conv K} {f g : K × K → K × K} (hc : conv.By f g) {dx dy : K} {coords : List (K × K)} (h : Short f dx dy coords) :
    ∃ ps, sectionPoints conv dx dy coords = .ok ps ∧ IsSection f g dx dy coords ps := by
  match coords, h with
  | [], _ => exact ⟨[], rfl, rfl⟩
  | [a], _ => exact ⟨[a], rfl, rfl⟩
  | a :: b :: l, h =>
    obtain ⟨ps, e1, e2⟩ := legs_ok hc (b :: l) true a h
    refine ⟨g (f a) :: ps, ?_, ps, rfl, e2⟩
    show legs conv dx dy true a (b :: l) = _
    rw [e1]
    simp

/-- Positions at which parts begin. -/
def startsOf : ℕ → List (List (K × K)) → List ℕ
  | _, [] => []
  | k, ps :: l => k :: startsOf (k + ps.length) l

theorem gather_ok {conv : Conv K} {f g : K × K → K × K} (hc : conv.By f g) {dx dy : K} : ∀ (l : List (Section K)) (G : Gathered K),
    (∀ s ∈ l, Short f dx dy s.coords) →
    ∃ parts, gather conv dx dy l G = .ok ⟨G.points ++ parts.flatten, G.starts ++ startsOf G.points.length parts,
        G.names ++ (l.filter fun s => s.coords ≠ []).map (·.name), (l.filter fun s => s.coords ≠ []).foldl (fun m s => max m (s.name.length + 1)) G.maxLen⟩ ∧
      List.Forall₂ (fun s ps => IsSection f g dx dy s.coords ps) (l.filter fun s => s.coords ≠ []) parts
  | [], G, _ => ⟨[], by simp [gather, startsOf], .nil⟩
  | s :: l, G, h => by
    unfold gather
    by_cases hs : s.coords = []
    · rw [if_pos hs]
      obtain ⟨parts, e1, e2⟩ := gather_ok hc l G fun s hs => h s (List.mem_cons_of_mem _ hs)
      rw [e1]
      exact ⟨parts, by simp [hs], by simpa [hs] using e2⟩
    · rw [if_neg hs]
      obtain ⟨ps, e1, e2⟩ := section_ok hc (h s (by simp))
      rw [e1, Res.ok_bind]
      obtain ⟨parts, e3, e4⟩ := gather_ok hc l ⟨G.points ++ ps, G.starts ++ [G.points.length], G.names ++ [s.name], max G.maxLen (s.name.length + 1)⟩
        fun s hs => h s (List.mem_cons_of_mem _ hs)
      rw [e3]
      refine ⟨ps :: parts, ?_, ?_⟩
      · simp [hs, startsOf, List.append_assoc]
      · rw [List.filter_cons_of_pos (by simpa using hs)]
        exact .cons e2 e4

/-- **C104.** The points: those of the cross sections with a coordinate, one cross section after the other. -/
theorem C104_points {conv : Conv K} {f g : K × K → K × K} (hc : conv.By f g) {dx dy : K} {l : List (Section K)}
    (h : ∀ s ∈ l, Short f dx dy s.coords) :
    ∃ parts G, gather conv dx dy l ⟨[], [], [], 80⟩ = .ok G ∧ G.points = parts.flatten ∧
      G.names = (l.filter fun s => s.coords ≠ []).map (·.name) ∧ G.starts = startsOf 0 parts ∧
      List.Forall₂ (fun s ps => IsSection f g dx dy s.coords ps) (l.filter fun s => s.coords ≠ []) parts ∧
      80 ≤ G.maxLen ∧ (∀ n ∈ G.names, n.length < G.maxLen) ∧ (80 < G.maxLen → ∃ n ∈ G.names, n.length + 1 = G.maxLen) := by
  obtain ⟨parts, e1, e2⟩ := gather_ok hc l ⟨[], [], [], 80⟩ h
  refine ⟨parts, _, e1, by simp, by simp, by simp, e2, ?_⟩
  have hfold : ∀ (l : List (Section K)) (m : ℕ), let r := l.foldl (fun m s => max m (s.name.length + 1)) m
      m ≤ r ∧ (∀ n ∈ l.map (·.name), n.length < r) ∧ (m < r → ∃ n ∈ l.map (·.name), n.length + 1 = r) := by
    intro l
    induction l with
    | nil => intro m; simp
    | cons s l ih =>
      intro m
      obtain ⟨h1, h2, h3⟩ := ih (max m (s.name.length + 1))
      dsimp only at *
      rw [List.foldl_cons]
      refine ⟨(le_max_left _ _).trans h1, ?_, ?_⟩
      · intro n hn
        rcases List.mem_cons.1 hn with rfl | hn
        · exact Nat.lt_of_succ_le ((le_max_right m (s.name.length + 1)).trans h1)
        · exact h2 n hn
      · intro hm
        rcases Nat.lt_or_ge (max m (s.name.length + 1)) (l.foldl (fun m s => max m (s.name.length + 1)) (max m (s.name.length + 1))) with hlt | hge
        · obtain ⟨n, hn, e⟩ := h3 hlt
          exact ⟨n, List.mem_cons_of_mem _ hn, e⟩
        · clear h2 h3 ih
          exact ⟨s.name, by simp, by omega⟩
  simpa using hfold (l.filter fun s => s.coords ≠ []) 80

omit [FloorRing K] [IsStrictOrderedRing K] in
theorem IsLegs.mem {f g : K × K → K × K} {dx dy : K} [IsStrictOrderedRing K] {a : K × K} {l qs : List (K × K)} (h : IsLegs f g dx dy a l qs) :
    (∀ b ∈ l, g (f b) ∈ qs) ∧ (g (f a) :: qs).getLast? = some (g (f ((a :: l).getLast (by simp)))) := by
  induction h with
  | nil a => simp
  | @cons a b l ps qs h1 h2 ih =>
    obtain ⟨n, hn, rfl, -, -⟩ := h1
    obtain ⟨m, rfl⟩ : ∃ m, n = m + 1 := ⟨n - 1, by omega⟩
    have hlast : between (f a) (f b) (((m : ℕ) + 1 : K) / ((m + 1 : ℕ) : K)) = f b := by
      have hne : ((m : K) + 1) ≠ 0 := by exact_mod_cast Nat.succ_ne_zero m
      unfold between
      push_cast
      rw [div_self hne]
      simp
    rw [List.range_succ, List.map_append, List.map_singleton, hlast]
    refine ⟨?_, ?_⟩
    · intro c hcm
      rcases List.mem_cons.1 hcm with rfl | hcm
      · simp
      · exact List.mem_append_right _ (ih.1 c hcm)
    · rw [List.append_assoc, ← List.cons_append, List.singleton_append, List.getLast?_append_cons, ih.2]
      simp

omit [FloorRing K] in
/-- **C104.** The cross section begins at its first coordinate, goes through all of them and ends at the last one, where converting to the projection
and back gives the same place. -/
theorem C104_through {f g : K × K → K × K} {dx dy : K} {coords ps : List (K × K)} (h : IsSection f g dx dy coords ps)
    (hinv : ∀ a ∈ coords, g (f a) = a) : ps.head? = coords.head? ∧ ps.getLast? = coords.getLast? ∧ ∀ a ∈ coords, a ∈ ps := by
  match coords, h with
  | [], h => subst h; simp
  | [a], h => subst h; simp
  | a :: b :: l, h =>
    obtain ⟨qs, rfl, hl⟩ := h
    obtain ⟨h1, h2⟩ := hl.mem
    refine ⟨by simp [hinv a], ?_, ?_⟩
    · rw [h2, hinv _ (List.getLast_mem _), List.getLast?_eq_getLast_of_ne_nil]
    · intro c hcm
      rcases List.mem_cons.1 hcm with rfl | hcm'
      · rw [hinv c hcm]; simp
      · have := h1 c hcm'
        rw [hinv c hcm] at this
        exact List.mem_cons_of_mem _ this

omit [FloorRing K] in
/-- **C104.** Two points of a leg that follow each other are less than two cells apart in the projection, and at least one if the leg is. -/
theorem C104_spacing {f g : K × K → K × K} {dx dy : K} {a b : K × K} {ps : List (K × K)} (h : IsLeg f g dx dy a b ps) :
    ∃ n : ℕ, ps.length = n ∧ ∀ j < n, ∃ p q, p = between (f a) (f b) ((j : K) / n) ∧ q = between (f a) (f b) ((j + 1 : K) / n) ∧
      ps[j]? = some (g q) ∧ cells dx dy p q < 2 ∧ (1 ≤ cells dx dy (f a) (f b) → 1 ≤ cells dx dy p q) := by
  obtain ⟨n, hn, rfl, h1, h2⟩ := h
  refine ⟨n, by simp, fun j hj => ⟨_, _, rfl, rfl, by simp [hj], ?_⟩⟩
  have hn0 : (0 : K) < n := by exact_mod_cast hn
  have hcell : cells dx dy (between (f a) (f b) ((j : K) / n)) (between (f a) (f b) ((j + 1 : K) / n)) = cells dx dy (f a) (f b) / n := by
    have e : ∀ u v : K, |(1 - ((j : K) + 1) / n) * u + ((j : K) + 1) / n * v - ((1 - (j : K) / n) * u + (j : K) / n * v)| = |v - u| / n := by
      intro u v
      rw [← abs_of_pos hn0, ← abs_div, abs_of_pos hn0]
      congr 1
      field_simp
      ring
    unfold cells between
    dsimp only
    rw [e, e, ← max_div_div_right hn0.le]
    congr 1 <;> ring
  rw [hcell]
  have hlt : cells dx dy (f a) (f b) < n + 1 := by
    by_contra hge
    have := h2 (n + 1) (by push_cast; exact not_lt.1 hge)
    omega
  have hn1 : (1 : K) ≤ n := by exact_mod_cast hn
  refine ⟨?_, fun hc => ?_⟩
  · rw [div_lt_iff₀ hn0]
    linarith
  · rw [le_div_iff₀ hn0, one_mul]
    rcases Nat.lt_or_ge 1 n with h | h
    · exact h1 h
    · have : n = 1 := by omega
      rw [this]
      simpa using hc

end Points

/-! ## Bounds -/

variable {K : Type}

theorem toInt_eq {n : ℕ} (h : n < 2 ^ 31) : toInt n = n := by
  unfold toInt
  rw [Int.bmod_eq_of_le] <;> omega

theorem bounds_ok : ∀ (parts : List (List (K × K))) (k : ℕ), parts ≠ [] → (∀ ps ∈ parts, ps ≠ []) → k + parts.flatten.length < 2 ^ 31 →
    ∃ bs : List (ℕ × ℕ), bounds (startsOf k parts) (k + parts.flatten.length) = .ok (bs.flatMap fun b => [(b.1 : ℤ), (b.2 : ℤ)]) ∧
      ∀ i, bs[i]? = if i < parts.length then some (k + (parts.take i).flatten.length, k + (parts.take (i + 1)).flatten.length - 1) else none
  | [], _, h, _, _ => absurd rfl h
  | [ps], k, _, hne, hlt => by
    have := List.length_pos_iff.2 (hne ps (by simp))
    simp only [List.flatten_cons, List.flatten_nil, List.append_nil] at hlt ⊢
    refine ⟨[(k, k + ps.length - 1)], ?_, ?_⟩
    · simp only [startsOf, bounds]
      rw [toInt_eq (by omega), toInt_eq (by omega)]
      rfl
    · intro i
      cases i with
      | zero => simp
      | succ i => simp
  | ps :: qs :: parts, k, _, hne, hlt => by
    have hpos := List.length_pos_iff.2 (hne ps (by simp))
    obtain ⟨bs, e1, e2⟩ := bounds_ok (qs :: parts) (k + ps.length) (by simp) (fun r hr => hne r (List.mem_cons_of_mem _ hr))
      (by rw [List.flatten_cons, List.length_append] at hlt; omega)
    refine ⟨(k, k + ps.length - 1) :: bs, ?_, ?_⟩
    · have hl : k + (ps :: qs :: parts).flatten.length = k + ps.length + (qs :: parts).flatten.length := by
        rw [List.flatten_cons, List.length_append]; omega
      rw [hl]
      have hs : startsOf k (ps :: qs :: parts) = k :: (k + ps.length) :: startsOf (k + ps.length + qs.length) parts := rfl
      rw [hs]
      unfold bounds
      have hs' : startsOf (k + ps.length) (qs :: parts) = (k + ps.length) :: startsOf (k + ps.length + qs.length) parts := rfl
      rw [hs'] at e1
      rw [List.flatten_cons, List.length_append] at hlt
      rw [e1, Res.ok_bind, toInt_eq (by omega), toInt_eq (by omega)]
      rfl
    · intro i
      cases i with
      | zero => simp
      | succ i =>
        rw [List.getElem?_cons_succ, e2]
        simp only [List.length_cons, List.take_succ_cons, List.flatten_cons, List.length_append]
        by_cases h : i < parts.length + 1
        · rw [if_pos h, if_pos (by omega)]
          congr 2 <;> omega
        · rw [if_neg h, if_neg (by omega)]

/-- **C104.** Each pair of bounds is the first and the last position of one cross section, both included, in the list of all points. -/
theorem C104_bounds {parts : List (List (K × K))} (h0 : parts ≠ []) (hne : ∀ ps ∈ parts, ps ≠ []) (hlt : parts.flatten.length < 2 ^ 31) :
    ∃ bs : List (ℕ × ℕ), bounds (startsOf 0 parts) parts.flatten.length = .ok (bs.flatMap fun b => [(b.1 : ℤ), (b.2 : ℤ)]) ∧
      bs.length = parts.length ∧
      (∀ (i : ℕ) (b : ℕ × ℕ) (ps : List (K × K)), bs[i]? = some b → parts[i]? = some ps → b.1 ≤ b.2 ∧ (parts.flatten.take (b.2 + 1)).drop b.1 = ps) ∧
      (∀ b : ℕ × ℕ, bs[0]? = some b → b.1 = 0) ∧ (∀ (i : ℕ) (b b' : ℕ × ℕ), bs[i]? = some b → bs[i + 1]? = some b' → b'.1 = b.2 + 1) ∧
      (∀ b : ℕ × ℕ, bs.getLast? = some b → b.2 + 1 = parts.flatten.length) := by
  obtain ⟨bs, e1, e2⟩ := bounds_ok parts 0 h0 hne (by omega)
  simp only [Nat.zero_add] at e1 e2
  have hlen : bs.length = parts.length := by
    have h1 := e2 bs.length
    rw [List.getElem?_eq_none le_rfl] at h1
    have h2 := e2 parts.length
    rw [if_neg (lt_irrefl _)] at h2
    rw [List.getElem?_eq_none_iff] at h2
    by_contra hc
    rw [if_pos (by omega)] at h1
    cases h1
  have hstep : ∀ i ps, parts[i]? = some ps → (parts.take (i + 1)).flatten = (parts.take i).flatten ++ ps := by
    intro i ps h
    rw [List.take_add_one, h]
    simp
  have hget : ∀ i b, bs[i]? = some b → i < parts.length ∧ b = ((parts.take i).flatten.length, (parts.take (i + 1)).flatten.length - 1) := by
    intro i b hb
    rw [e2] at hb
    split at hb
    · next h => exact ⟨h, (Option.some.inj hb).symm⟩
    · cases hb
  have hpos : ∀ i, i < parts.length → (parts.take i).flatten.length < (parts.take (i + 1)).flatten.length := by
    intro i hi
    rw [hstep i parts[i] (List.getElem?_eq_getElem hi), List.length_append]
    have := List.length_pos_iff.2 (hne parts[i] (List.getElem_mem hi))
    omega
  refine ⟨bs, e1, hlen, ?_, ?_, ?_, ?_⟩
  · intro i b ps hb hps
    obtain ⟨hi, rfl⟩ := hget i b hb
    have := hpos i hi
    refine ⟨by dsimp only; omega, ?_⟩
    dsimp only
    have he : (parts.take (i + 1)).flatten.length - 1 + 1 = (parts.take (i + 1)).flatten.length := by omega
    rw [he]
    have hsplit : parts.flatten = (parts.take (i + 1)).flatten ++ (parts.drop (i + 1)).flatten := by
      rw [← List.flatten_append, List.take_append_drop]
    rw [hsplit, List.take_left, hstep i ps hps, List.drop_left]
  · intro b hb
    obtain ⟨-, rfl⟩ := hget 0 b hb
    simp
  · intro i b b' hb hb'
    obtain ⟨hi, rfl⟩ := hget i b hb
    obtain ⟨hi', rfl⟩ := hget (i + 1) b' hb'
    have := hpos i hi
    dsimp only
    omega
  · intro b hb
    rw [List.getLast?_eq_getElem?] at hb
    obtain ⟨hi, rfl⟩ := hget _ b hb
    have := hpos _ hi
    dsimp only
    have he : bs.length - 1 + 1 = parts.length := by omega
    rw [he, List.take_length] at this ⊢
    omega

/-! ## Names -/

/-- The field of a name: the name, filled with zero characters. -/
def field (maxLen : ℕ) (n : List Char) : List Char := n ++ List.replicate (maxLen - n.length) (Char.ofNat 0)

theorem placeNames_eq {maxLen : ℕ} : ∀ (names : List (List Char)) (i : ℕ) (done : List Char), (∀ n ∈ names, n.length < maxLen) → done.length = i * maxLen →
    placeNames maxLen i names (done ++ List.replicate (maxLen * names.length) (Char.ofNat 0)) = done ++ names.flatMap (field maxLen)
  | [], i, done, _, _ => by simp [placeNames]
  | n :: l, i, done, h, hd => by
    have hn := h n (by simp)
    unfold placeNames
    have hr : replaceAt (i * maxLen) (min (maxLen - 1) n.length) n (done ++ List.replicate (maxLen * (n :: l).length) (Char.ofNat 0)) =
        (done ++ field maxLen n) ++ List.replicate (maxLen * l.length) (Char.ofNat 0) := by
      unfold replaceAt field
      rw [min_eq_right (by omega), ← hd, List.take_left, List.drop_append, List.drop_eq_nil_of_le (by omega), List.nil_append, List.drop_replicate]
      simp only [List.append_assoc]
      congr 2
      rw [List.replicate_append_replicate]
      congr 1
      rw [List.length_cons, Nat.mul_succ]
      omega
    rw [hr, placeNames_eq l (i + 1) (done ++ field maxLen n) (fun m hm => h m (List.mem_cons_of_mem _ hm))]
    · simp
    · have : (field maxLen n).length = maxLen := by unfold field; simp; omega
      rw [List.length_append, hd, this]
      ring

/-- **C104.** The text of the names: one field of the same length for each, with the name and at least one zero character. -/
theorem C104_names {maxLen : ℕ} {names : List (List Char)} (h : ∀ n ∈ names, n.length < maxLen) :
    (namesText maxLen names).length = maxLen * names.length ∧
    ∀ i n, names[i]? = some n → ((namesText maxLen names).drop (i * maxLen)).take maxLen = n ++ List.replicate (maxLen - n.length) (Char.ofNat 0) := by
  have he : namesText maxLen names = names.flatMap (field maxLen) := by
    have := placeNames_eq names 0 [] h (by simp)
    simpa [namesText] using this
  rw [he]
  have hfl : ∀ n ∈ names, (field maxLen n).length = maxLen := by
    intro n hn
    have := h n hn
    unfold field
    simp
    omega
  clear he h
  induction names with
  | nil => simp
  | cons m l ih =>
    have hm := hfl m (by simp)
    obtain ⟨h1, h2⟩ := ih fun n hn => hfl n (List.mem_cons_of_mem _ hn)
    refine ⟨?_, ?_⟩
    · rw [List.flatMap_cons, List.length_append, hm, h1, List.length_cons]
      ring
    · intro i n hi
      rw [List.flatMap_cons]
      cases i with
      | zero =>
        simp only [List.getElem?_cons_zero, Option.some.injEq] at hi
        subst hi
        rw [Nat.zero_mul, List.drop_zero, List.take_append_of_le_length (by omega), List.take_of_length_le (by omega)]
        rfl
      | succ i =>
        have : (i + 1) * maxLen = (field maxLen m).length + i * maxLen := by rw [hm]; ring
        rw [this, ← List.drop_drop, List.drop_left]
        exact h2 i n (by simpa using hi)

/-! ## The dataset -/

variable {P V CS : Type}

/-- Names that are added. -/
def newDims : List String := ["two", "nvcross", "nvcross_strlen"]
def newVars : List String := ["vcross_name", "vcross_bnds"]

/-- The attribute of the bounds. -/
def boundsText : String := "start- and end-position (included) in lat- and lon-dimensions for each vert. cross-section"

theorem andThen_ok {α β : Type} {c : CDM P V CS} {a : α} {f : CDM P V CS → α → CDM P V CS × Res β} : andThen (c, .ok a) f = f c a := rfl

theorem addDimension_new {c : CDM P V CS} {d : Dim} (h : hasDimension c d.name = false) :
    addDimension c d = ({ c with coordsInitialized := false, dims := c.dims ++ [d] }, .ok ()) := by
  unfold addDimension
  have : hasDimension { c with coordsInitialized := false } d.name = false := h
  dsimp only
  rw [this]
  rfl

theorem addDimension_old {c : CDM P V CS} {d : Dim} (h : hasDimension c d.name = true) : (addDimension c d).2 = .throws := by
  unfold addDimension
  have : hasDimension { c with coordsInitialized := false } d.name = true := h
  dsimp only
  rw [this]
  rfl

theorem addVariable_new {c : CDM P V CS} {v : Var P} (h : hasVariable c v.name = false) :
    addVariable c v = ({ c with coordsInitialized := false, vars := c.vars ++ [v] }, .ok ()) := by
  unfold addVariable
  have : hasVariable { c with coordsInitialized := false } v.name = false := h
  dsimp only
  rw [this]
  rfl

theorem addVariable_old {c : CDM P V CS} {v : Var P} (h : hasVariable c v.name = true) : (addVariable c v).2 = .throws := by
  unfold addVariable
  have : hasVariable { c with coordsInitialized := false } v.name = true := h
  dsimp only
  rw [this]
  rfl

theorem addAttribute_new {c : CDM P V CS} {n : String} {a : Attr V} (h : hasVariable c n = true) (ha : c.attrs n = none) :
    addAttribute c n a = ({ c with coordsInitialized := false, attrs := fun m => if m = n then some [a] else c.attrs m }, .ok ()) := by
  have hv : hasVariable { c with coordsInitialized := false } n = true := h
  have hg : getAttributes { c with coordsInitialized := false } n = [] := by
    show (c.attrs n).getD [] = []
    rw [ha]
    rfl
  unfold addAttribute
  dsimp only
  rw [if_neg (by rw [hv]; simp), hg]
  have hg2 : getAttributes { c with coordsInitialized := false, attrs := fun m => if m = n then some [] else c.attrs m } n = [] := by
    simp [getAttributes]
  rw [hg2]
  simp only [List.any_nil, Bool.false_eq_true, if_false, List.nil_append]
  congr 2
  funext m
  by_cases hm : m = n <;> simp [hm]

/-- **C104.** The dataset: three dimensions, the names and the bounds, each with its attribute; everything else as before. -/
theorem C104_dataset (M : Make P V) {g : Gathered K} {c : CDM P V CS} (hi : Inv c) (hd : ∀ n ∈ newDims, hasDimension c n = false)
    (hv : ∀ n ∈ newVars, hasVariable c n = false) {b : List ℤ} (hb : bounds g.starts g.points.length = .ok b) :
    ∃ c', addSections M g c = (c', .ok ()) ∧
      c'.dims = c.dims ++ [⟨"two", 2, false⟩, ⟨"nvcross", g.names.length, false⟩, ⟨"nvcross_strlen", g.maxLen, false⟩] ∧
      c'.vars = c.vars ++ [⟨"vcross_name", ["nvcross_strlen", "nvcross"], M.text (namesText g.maxLen g.names)⟩,
        ⟨"vcross_bnds", ["two", "nvcross"], M.ints b⟩] ∧
      c'.attrs = fun n => if n = "vcross_bnds" then some [⟨"description", M.value boundsText⟩]
        else if n = "vcross_name" then some [⟨"bounds", M.value "vcross_bnds"⟩] else c.attrs n := by
  have d1 := hd "two" (by decide)
  have d2 := hd "nvcross" (by decide)
  have d3 := hd "nvcross_strlen" (by decide)
  have v1 := hv "vcross_name" (by decide)
  have v2 := hv "vcross_bnds" (by decide)
  have noattr : ∀ n, hasVariable c n = false → n ≠ globalNS → c.attrs n = none := by
    intro n h hg
    by_contra hc
    rcases hi.owners n hc with h' | h'
    · exact hg h'
    · rw [h] at h'; cases h'
  have a1 := noattr _ v1 (by decide)
  have a2 := noattr _ v2 (by decide)
  unfold hasDimension at d1 d2 d3
  unfold hasVariable at v1 v2
  unfold addSections
  rw [addDimension_new (by exact d1), andThen_ok, addDimension_new (by simp [hasDimension, List.any_append, d2]), andThen_ok,
    addDimension_new (by simp [hasDimension, List.any_append, d3]), andThen_ok, addVariable_new (by exact v1), andThen_ok,
    addAttribute_new (by simp [hasVariable]) (by exact a1), andThen_ok, hb, andThen_ok, addVariable_new (by simp [hasVariable, List.any_append, v2]), andThen_ok,
    addAttribute_new (by simp [hasVariable]) (by simp [a2])]
  exact ⟨_, rfl, by simp, by simp, rfl⟩

theorem andThen_throws {α β : Type} {r : CDM P V CS × Res α} {f : CDM P V CS → α → CDM P V CS × Res β} (h : r.2 = .throws) :
    (andThen r f).2 = .throws := by
  obtain ⟨c, a⟩ := r
  dsimp only at h
  subst h
  rfl

/-- **C104.** An error is raised if one of the dimensions or variables is there already, or if there is no cross section with a coordinate. -/
theorem C104_raises (M : Make P V) {g : Gathered K} {c : CDM P V CS} (hi : Inv c)
    (h : (∃ n ∈ newDims, hasDimension c n = true) ∨ (∃ n ∈ newVars, hasVariable c n = true) ∨ g.starts = [])
    (hb : g.starts = [] ∨ ∃ b, bounds g.starts g.points.length = .ok b) : (addSections M g c).2 = .throws := by
  have noattr : ∀ n, hasVariable c n = false → n ≠ globalNS → c.attrs n = none := by
    intro n h hg
    by_contra hc
    rcases hi.owners n hc with h' | h'
    · exact hg h'
    · rw [h] at h'; cases h'
  unfold addSections
  cases d1 : hasDimension c "two" with
  | true => exact andThen_throws (addDimension_old (by exact d1))
  | false =>
  rw [addDimension_new (by exact d1), andThen_ok]
  cases d2 : hasDimension c "nvcross" with
  | true => exact andThen_throws (addDimension_old (by unfold hasDimension at d2; simp [hasDimension, List.any_append, d2]))
  | false =>
  have d2' := d2
  unfold hasDimension at d2'
  rw [addDimension_new (by simp [hasDimension, List.any_append, d2']), andThen_ok]
  cases d3 : hasDimension c "nvcross_strlen" with
  | true => exact andThen_throws (addDimension_old (by unfold hasDimension at d3; simp [hasDimension, List.any_append, d3]))
  | false =>
  have d3' := d3
  unfold hasDimension at d3'
  rw [addDimension_new (by simp [hasDimension, List.any_append, d3']), andThen_ok]
  cases v1 : hasVariable c "vcross_name" with
  | true => exact andThen_throws (addVariable_old (by exact v1))
  | false =>
  rw [addVariable_new (by exact v1), andThen_ok, addAttribute_new (by simp [hasVariable]) (by exact noattr _ v1 (by decide)), andThen_ok]
  by_cases hs : g.starts = []
  · rw [hs]
    exact andThen_throws rfl
  obtain ⟨b, hb⟩ := hb.resolve_left hs
  rw [hb, andThen_ok]
  cases v2 : hasVariable c "vcross_bnds" with
  | true =>
    exact andThen_throws (addVariable_old (by unfold hasVariable at v2; simp only [hasVariable, List.any_append, Bool.or_eq_true]; exact .inl v2))
  | false =>
    rcases h with ⟨n, hn, h⟩ | ⟨n, hn, h⟩ | h
    · simp only [newDims, List.mem_cons, List.not_mem_nil, or_false] at hn
      rcases hn with rfl | rfl | rfl
      · rw [d1] at h; cases h
      · rw [d2] at h; cases h
      · rw [d3] at h; cases h
    · simp only [newVars, List.mem_cons, List.not_mem_nil, or_false] at hn
      rcases hn with rfl | rfl
      · rw [v1] at h; cases h
      · rw [v2] at h; cases h
    · exact absurd h hs

section Whole

variable [Field K] [LinearOrder K] [IsStrictOrderedRing K] [FloorRing K]

omit [IsStrictOrderedRing K] in
/-- **C104.** The steps of axes with at least two values, the first two of which are different. -/
theorem C104_axes {xs ys : List K} {d : K × K} : axisSteps xs ys = .ok d ↔ ∃ x0 x1 y0 y1 xs' ys', xs = x0 :: x1 :: xs' ∧ ys = y0 :: y1 :: ys' ∧
    x1 ≠ x0 ∧ y1 ≠ y0 ∧ d = (x1 - x0, y1 - y0) := by
  unfold axisSteps
  match xs, ys with
  | [], _ => simp
  | [_], _ => simp
  | _ :: _ :: _, [] => simp
  | _ :: _ :: _, [_] => simp
  | x0 :: x1 :: xs', y0 :: y1 :: ys' =>
    dsimp only
    split
    · next h =>
      simp only [reduceCtorEq, false_iff]
      rintro ⟨_, _, _, _, _, _, e1, e2, h1, h2, -⟩
      cases e1
      cases e2
      rw [sub_eq_zero, sub_eq_zero] at h
      exact h.elim h1 h2
    · next h =>
      rw [sub_eq_zero, sub_eq_zero] at h
      push Not at h
      constructor
      · intro e
        exact ⟨_, _, _, _, _, _, rfl, rfl, h.1, h.2, (Res.ok.inj e).symm⟩
      · rintro ⟨_, _, _, _, _, _, e1, e2, h1, h2, rfl⟩
        cases e1
        cases e2
        rfl

omit [FloorRing K] [IsStrictOrderedRing K] in
theorem IsSection.ne_nil [IsStrictOrderedRing K] {f g : K × K → K × K} {dx dy : K} {coords ps : List (K × K)} (h : IsSection f g dx dy coords ps)
    (hc : coords ≠ []) : ps ≠ [] := by
  match coords, h with
  | [], _ => exact absurd rfl hc
  | [a], h => subst h; simp
  | a :: b :: l, h =>
    obtain ⟨qs, rfl, -⟩ := h
    simp

/-- **C104.** The cross sections: points, dataset and bounds belong together.  For other methods than nearest neighbour, bilinear and bicubic an error
is raised, after the dataset has been changed. -/
theorem C104_sections (M : Make P V) {conv : Conv K} {f g : K × K → K × K} (hc : conv.By f g) {xs ys : List K} {dx dy : K}
    (hax : axisSteps xs ys = .ok (dx, dy)) {l : List (Section K)} (hs : ∀ s ∈ l, Short f dx dy s.coords) (hne : ∃ s ∈ l, s.coords ≠ [])
    {c : CDM P V CS} (hi : Inv c) (hd : ∀ n ∈ newDims, hasDimension c n = false) (hv : ∀ n ∈ newVars, hasVariable c n = false)
    (hsize : ∀ G, gather conv dx dy l ⟨[], [], [], 80⟩ = .ok G → G.points.length < 2 ^ 31) (method : Tables.Method) :
    ∃ parts maxLen c', ∃ bs : List (ℕ × ℕ),
      List.Forall₂ (fun s ps => IsSection f g dx dy s.coords ps) (l.filter fun s => s.coords ≠ []) parts ∧
      crossSections M conv xs ys method l c =
        (c', if method = .nearestNeighbor ∨ method = .bilinear ∨ method = .bicubic then .ok parts.flatten else .throws) ∧
      c'.dims = c.dims ++ [⟨"two", 2, false⟩, ⟨"nvcross", parts.length, false⟩, ⟨"nvcross_strlen", maxLen, false⟩] ∧
      c'.vars = c.vars ++ [⟨"vcross_name", ["nvcross_strlen", "nvcross"], M.text (((l.filter fun s => s.coords ≠ []).map (·.name)).flatMap (field maxLen))⟩,
        ⟨"vcross_bnds", ["two", "nvcross"], M.ints (bs.flatMap fun b => [(b.1 : ℤ), (b.2 : ℤ)])⟩] ∧
      bs.length = parts.length ∧
      (∀ (i : ℕ) (b : ℕ × ℕ) (ps : List (K × K)), bs[i]? = some b → parts[i]? = some ps → b.1 ≤ b.2 ∧ (parts.flatten.take (b.2 + 1)).drop b.1 = ps) ∧
      ∀ s ∈ l, s.coords ≠ [] → s.name.length < maxLen := by
  obtain ⟨parts, G, e1, e2, e3, e4, e5, -, e7, -⟩ := C104_points hc hs
  have hlen : parts.length = (l.filter fun s => s.coords ≠ []).length := e5.length_eq.symm
  have hp0 : parts ≠ [] := by
    obtain ⟨s, hsl, hsn⟩ := hne
    have : s ∈ l.filter fun s => s.coords ≠ [] := by simp [hsl, hsn]
    intro h
    rw [h, List.length_nil] at hlen
    rw [List.eq_nil_of_length_eq_zero hlen.symm] at this
    cases this
  have hpn : ∀ ps ∈ parts, ps ≠ [] := by
    intro ps hps
    obtain ⟨i, hi', rfl⟩ := List.getElem_of_mem hps
    have hi2 : i < (l.filter fun s => s.coords ≠ []).length := by omega
    have h := (List.forall₂_iff_get.1 e5).2 i hi2 hi'
    refine IsSection.ne_nil h ?_
    have := List.getElem_mem hi2
    simpa using (List.mem_filter.1 this).2
  obtain ⟨bs, b1, b2, b3, -⟩ := C104_bounds hp0 hpn (by rw [← e2]; exact hsize G e1)
  obtain ⟨c', c1, c2, c3, -⟩ := C104_dataset M hi hd hv (g := G) (b := bs.flatMap fun b => [(b.1 : ℤ), (b.2 : ℤ)]) (by rw [e4, e2]; exact b1)
  refine ⟨parts, G.maxLen, c', bs, e5, ?_, ?_, ?_, b2, b3, ?_⟩
  · unfold crossSections
    rw [hax, andThen_ok, e1, andThen_ok, c1, andThen_ok, ← e2]
    congr 1
    cases method <;> rfl
  · rw [c2, e3, List.length_map, hlen]
  · rw [c3]
    have := placeNames_eq G.names 0 [] e7 (by simp)
    have hn : namesText G.maxLen G.names = G.names.flatMap (field G.maxLen) := by simpa [namesText] using this
    rw [hn, e3]
  · intro s hsl hsn
    refine e7 s.name ?_
    rw [e3]
    exact List.mem_map_of_mem (by simp [hsl, hsn])

/-- **C104.** A second call raises an error: the dimensions of the first one are still there. -/
theorem C104_twice (M : Make P V) {conv : Conv K} {f g : K × K → K × K} (hc : conv.By f g) {xs ys : List K} {dx dy : K}
    (hax : axisSteps xs ys = .ok (dx, dy)) {l l' : List (Section K)} (hs : ∀ s ∈ l, Short f dx dy s.coords) (hs' : ∀ s ∈ l', Short f dx dy s.coords)
    (hne : ∃ s ∈ l, s.coords ≠ []) {c : CDM P V CS} (hi : Inv c) (hd : ∀ n ∈ newDims, hasDimension c n = false)
    (hv : ∀ n ∈ newVars, hasVariable c n = false)
    (hsize : ∀ G, gather conv dx dy l ⟨[], [], [], 80⟩ = .ok G → G.points.length < 2 ^ 31) (method method' : Tables.Method) :
    (crossSections M conv xs ys method' l' (crossSections M conv xs ys method l c).1).2 = .throws := by
  obtain ⟨parts, maxLen, c', bs, -, e1, e2, -⟩ := C104_sections M hc hax hs hne hi hd hv hsize method
  rw [e1]
  obtain ⟨-, G, e3, -⟩ := C104_points hc hs'
  unfold crossSections
  rw [hax, andThen_ok, e3, andThen_ok]
  refine andThen_throws (andThen_throws (addDimension_old ?_))
  rw [hasDimension_iff, e2]
  simp

/-- **C104.** Without a coordinate in any of the cross sections an error is raised. -/
theorem C104_empty (M : Make P V) {conv : Conv K} {xs ys : List K} {d : K × K} (hax : axisSteps xs ys = .ok d) {l : List (Section K)}
    (hl : ∀ s ∈ l, s.coords = []) {c : CDM P V CS} (hi : Inv c) (method : Tables.Method) : (crossSections M conv xs ys method l c).2 = .throws := by
  have hg : ∀ (l : List (Section K)) (G : Gathered K), (∀ s ∈ l, s.coords = []) → gather conv d.1 d.2 l G = .ok G := by
    intro l
    induction l with
    | nil => intro G _; rfl
    | cons s l ih =>
      intro G h
      unfold gather
      rw [if_pos (h s (by simp))]
      exact ih G fun s hs => h s (List.mem_cons_of_mem _ hs)
  unfold crossSections
  rw [hax, andThen_ok, hg l _ hl, andThen_ok]
  exact andThen_throws (C104_raises M hi (.inr (.inr rfl)) (.inl rfl))

end Whole

/-! ## Cases -/

/-- A projection that changes nothing but the sign. -/
def turned : Conv ℚ := ⟨fun l => .ok (l.map fun p => (-p.1, p.2)), fun l => .ok (l.map fun p => (-p.1, p.2))⟩

example : turned.By (fun p => (-p.1, p.2)) fun p => (-p.1, p.2) := ⟨fun _ => rfl, fun _ => rfl⟩

def three : List (Section ℚ) := [⟨['a'], [(0, 0), (6, 1), (6, 2)]⟩, ⟨['b'], []⟩, ⟨['c', 'd'], [(5, 5)]⟩]

/-- Steps of two metres along x and one along y: points on the lines, the cross section without coordinates is left out. -/
example : axisSteps (K := ℚ) [10, 12, 14] [5, 4, 3, 2] = .ok (2, -1) ∧
    gather turned 2 (-1) three ⟨[], [], [], 80⟩ =
      .ok ⟨[(0, 0), (2, 1 / 3), (4, 2 / 3), (6, 1), (6, 2), (5, 5)], [0, 5], [['a'], ['c', 'd']], 80⟩ := by
  constructor
  · norm_num [axisSteps]
  · norm_num [gather, three, sectionPoints, legs, leg, turned, legNum, legPart, List.range', Res.ok_bind]
    rw [if_neg (by simp), show Int.toNat 3 = 3 from rfl]
    norm_num [List.range']

example : bounds [0, 5] 6 = .ok [0, 4, 5, 5] := by decide +kernel

example : namesText 3 [['a'], ['c', 'd']] = ['a', '\x00', '\x00', 'c', 'd', '\x00'] := by decide +kernel

example : ∀ s ∈ three, Short (fun p => (-p.1, p.2)) 2 (-1) s.coords := by
  intro s hs
  simp only [three, List.mem_cons, List.not_mem_nil, or_false] at hs
  rcases hs with rfl | rfl | rfl <;> norm_num [Short, cells]

end Fimex.Sections
