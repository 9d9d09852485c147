import Verif.Felt.Grid
import Mathlib.Tactic.Linarith
import Mathlib.Tactic.Ring
import Mathlib.Tactic.FieldSimp
import Mathlib.Tactic.NormNum
import Mathlib.Algebra.Order.Ring.Rat
import Mathlib.Data.Rat.Defs

/-!
# Grids of Felt files (C132): theorems
-/

namespace Fimex.FeltGrid

variable {K : Type} [Field K] [LinearOrder K] [IsStrictOrderedRing K]

/-! ## Words behind the grid -/

/-- Specification: numbers of pairs of words. -/
def pairs (scale : K) : List Int → List K
  | a :: b :: r => ((a : K) * 10000 + b) / scale :: pairs scale r
  | _ => []

/-- Specification: numbers of triples of words, exponent first. -/
def triples : List Int → List K
  | e :: a :: b :: r => ((a : K) * 10000 + b) * (10 : K) ^ e :: triples r
  | _ => []

omit [Field K] [LinearOrder K] [IsStrictOrderedRing K] in
theorem setFirst_eq {val : Nat → Res K} {w : Nat → K} (g : List K) : ∀ n, (∀ i, i < n → val i = .ok (w i)) → n ≤ g.length →
    setFirst val n g = .ok ((List.range n).map w ++ g.drop n)
  | 0, _, _ => by simp [setFirst]
  | n + 1, h, hg => by
    rw [setFirst, setFirst_eq g n (fun i hi => h i (by omega)) (by omega)]
    simp only [Res.bind, h n (by omega)]
    congr 1
    have hl : ((List.range n).map w).length = n := by simp
    rw [List.set_append_right _ _ (by omega), hl, Nat.sub_self, List.drop_eq_getElem_cons (show n < g.length by omega), List.set_cons_zero, List.range_succ, List.map_append]
    simp

omit [LinearOrder K] [IsStrictOrderedRing K] in
theorem pairs_eq (scale : K) : ∀ (n : Nat) (extra : List Int), extra.length = 2 * n →
    pairs scale extra = (List.range n).map fun i => ((extra.getD (2 * i) 0 : Int) * (10000 : K) + (extra.getD (2 * i + 1) 0 : Int)) / scale
  | 0, extra, h => by
    have : extra = [] := List.eq_nil_of_length_eq_zero (by omega)
    subst this; rfl
  | n + 1, a :: b :: r, h => by
    rw [pairs, pairs_eq scale n r (by simp at h; omega), List.range_succ_eq_map, List.map_cons, List.map_map]
    congr 1
  | n + 1, [], h => by simp at h
  | n + 1, [_], h => by simp at h; omega

omit [LinearOrder K] [IsStrictOrderedRing K] in
theorem triples_eq : ∀ (n : Nat) (extra : List Int), extra.length = 3 * n →
    triples extra = (List.range n).map fun i => ((extra.getD (3 * i + 1) 0 : Int) * (10000 : K) + (extra.getD (3 * i + 2) 0 : Int)) * (10 : K) ^ (extra.getD (3 * i) 0)
  | 0, extra, h => by
    have : extra = [] := List.eq_nil_of_length_eq_zero (by omega)
    subst this; rfl
  | n + 1, e :: a :: b :: r, h => by
    rw [triples, triples_eq n r (by simp at h; omega), List.range_succ_eq_map, List.map_cons, List.map_map]
    congr 1
  | n + 1, [], h => by simp at h
  | n + 1, [_], h => by simp at h; omega
  | n + 1, [_, _], h => by simp at h; omega

theorem at'_getD {l : List Int} {i : Nat} (h : i < l.length) : at' l i = .ok (l.getD i 0) := by
  unfold at'
  rw [List.getElem?_eq_getElem h]
  simp [List.getD, List.getElem?_eq_getElem h]

omit [LinearOrder K] [IsStrictOrderedRing K] in
/-- **C132.** What words behind the grid do to the parameters, for all numbers of words; they are never read behind their end. -/
theorem C132_extra (g : List K) (used : Nat) (scale : K) (extra : List Int) (h0 : 0 < used) (hg : used ≤ g.length) :
    scaleExtra g used scale extra =
      if extra = [] then .ok g
      else if extra.length = 2 * used then .ok (pairs scale extra ++ g.drop used)
      else if extra.length = 2 + 3 * used ∧ extra.take 2 = [(used : Int), 3] then .ok (triples (extra.drop 2) ++ g.drop used)
      else .throws := by
  unfold scaleExtra
  by_cases h1 : extra = []
  · subst h1; simp
  · have h1' : ¬ extra.length = 0 := fun h => h1 (List.eq_nil_of_length_eq_zero h)
    rw [if_neg h1, if_neg h1']
    by_cases h2 : extra.length = 2 * used
    · rw [if_pos h2, if_pos h2, pairs_eq scale used extra h2]
      unfold scaleFirst
      refine setFirst_eq g used (fun i hi => ?_) hg
      rw [at'_getD (show 2 * i < extra.length by omega), at'_getD (show 2 * i + 1 < extra.length by omega)]
      rfl
    · rw [if_neg h2, if_neg h2]
      by_cases h3 : extra.length = 2 + 3 * used
      · rw [if_pos h3]
        match extra, h3 with
        | a :: b :: r, h3 =>
          have hr : r.length = 3 * used := by simp at h3; omega
          unfold scaleSecond
          simp only [readAt, List.getElem?_cons_zero, List.getElem?_cons_succ, Res.bind]
          by_cases ha : a = used
          · by_cases hb : b = 3
            · subst ha hb
              rw [if_neg (by simp), if_neg (by simp), if_pos ⟨h3, by simp⟩, List.drop_succ_cons, List.drop_succ_cons, List.drop_zero, triples_eq used r hr]
              refine setFirst_eq g used (fun i hi => ?_) hg
              have e0 := at'_getD (l := (used : Int) :: 3 :: r) (i := i * 3 + 2) (by simp; omega)
              have e1 := at'_getD (l := (used : Int) :: 3 :: r) (i := i * 3 + 2 + 1) (by simp; omega)
              have e2 := at'_getD (l := (used : Int) :: 3 :: r) (i := i * 3 + 2 + 2) (by simp; omega)
              simp only [e0, e1, e2]
              have k : ∀ j, ((used : Int) :: 3 :: r).getD (j + 2) 0 = r.getD j 0 := fun j => rfl
              rw [show i * 3 + 2 + 1 = (3 * i + 1) + 2 by ring, show i * 3 + 2 + 2 = (3 * i + 2) + 2 by ring, show i * 3 + 2 = 3 * i + 2 by ring, k, k, k]
            · rw [if_neg (by simp [ha]), if_pos hb, if_neg (by simp [hb])]
          · rw [if_pos ha, if_neg (by simp [ha])]
        | [], h3 => simp at h3; omega
        | [_], h3 => simp at h3; omega
      · rw [if_neg h3, if_neg (fun h => h3 h.1)]

omit [LinearOrder K] [IsStrictOrderedRing K] in
/-- **C132.** Whole numbers that are written as pairs of words come back, divided by the scale. -/
theorem C132_encoded (g : List K) (scale : K) (ns : List Int) (h0 : ns ≠ []) (hg : ns.length ≤ g.length) :
    scaleExtra g ns.length scale (ns.flatMap fun n => [n.tdiv 10000, n.tmod 10000]) = .ok (ns.map (fun n : Int => (n : K) / scale) ++ g.drop ns.length) := by
  have hl : ∀ ns : List Int, (ns.flatMap fun n => [n.tdiv 10000, n.tmod 10000]).length = 2 * ns.length := by
    intro ns
    induction ns with
    | nil => rfl
    | cons n ns ih => rw [List.flatMap_cons, List.length_append, ih]; simp; ring
  have hp : ∀ ns : List Int, pairs scale (ns.flatMap fun n => [n.tdiv 10000, n.tmod 10000]) = ns.map (fun n : Int => (n : K) / scale) := by
    intro ns
    induction ns with
    | nil => rfl
    | cons n ns ih =>
      rw [List.flatMap_cons]
      show pairs scale (n.tdiv 10000 :: n.tmod 10000 :: _) = _
      rw [pairs]
      show _ :: pairs scale (ns.flatMap fun n => [n.tdiv 10000, n.tmod 10000]) = _
      rw [ih, List.map_cons]
      congr 2
      have := Int.tdiv_mul_add_tmod n 10000
      exact_mod_cast congrArg (Int.cast : Int → K) this
  have hpos : 0 < ns.length := List.length_pos_iff.2 h0
  rw [C132_extra g ns.length scale _ hpos hg, if_neg, if_pos (hl ns), hp]
  intro h
  have := hl ns
  rw [h] at this
  simp at this
  exact h0 this

/-- Pairs and triples of words. -/
example : scaleExtra ([0, 0, 7] : List ℚ) 2 100 [1, 2345, -2, -50] = .ok [12345 / 100, -20050 / 100, 7] ∧
    scaleExtra ([0, 0, 7] : List ℚ) 2 100 [2, 3, -2, 1, 2345, 0, 0, 9] = .ok [12345 / 100, 9, 7] ∧ scaleExtra ([0, 0, 7] : List ℚ) 2 100 [3, 3, -2, 1, 2345, 0, 0, 9] = .throws ∧
    scaleExtra ([0, 0, 7] : List ℚ) 2 100 [1] = .throws := by decide +kernel

/-! ## Axes -/

omit [IsStrictOrderedRing K] in
/-- **C132.** Latitudes are those of the header, from the first row on, whether they grow or fall; if the axis has another number of rows than the grid, falling ones are shifted by
the difference. -/
theorem C132_latitudes (g : List K) (ny n : Nat) : yData (geographicGrid ny g) n =
    (List.range n).map fun j : Nat => par g 1 + ((j : K) + if par g 3 < 0 then (ny : K) - n else 0) * par g 3 := by
  unfold yData geographicGrid
  apply List.map_congr_left
  intro j _
  by_cases h : par g 3 < 0
  · simp only [if_pos h, if_true]
    ring
  · simp only [if_neg h, Bool.false_eq_true, if_false]
    ring

omit [IsStrictOrderedRing K] in
/-- The same rows: no shift. -/
theorem C132_latitudes_same (g : List K) (ny : Nat) : yData (geographicGrid ny g) ny = (List.range ny).map fun j : Nat => par g 1 + j * par g 3 := by
  rw [C132_latitudes]
  apply List.map_congr_left
  intro j _
  simp

/-- **C132.** In a stereographic grid, the pole is at the column and row of the header, counted from one, and has the coordinates 0; columns and rows are equally far apart. -/
theorem C132_pole (sin : K → K) (g : List K) (n i j : Nat) (hi : i < n) (hj : j < n) (hx : par g 0 = i + 1) (hy : par g 1 = j + 1) :
    (xData (polarGrid sin g) n)[i]? = some 0 ∧ (yData (polarGrid sin g) n)[j]? = some 0 ∧ (polarGrid sin g).incX = (polarGrid sin g).incY := by
  unfold xData yData polarGrid
  refine ⟨?_, ?_, rfl⟩
  · rw [List.getElem?_map, List.getElem?_range hi, Option.map_some, hx]
    congr 1
    ring
  · rw [List.getElem?_map, List.getElem?_range hj, Option.map_some, hy]
    simp only [Bool.false_eq_true, if_false]
    congr 1
    ring

/-! ## Accepted grids -/

theorem mul_zero_iff {c : Int} {q : K} (hq : q ≠ 0) : (c : K) * q = 0 ↔ c = 0 := by
  rw [mul_eq_zero]
  simp [hq]

theorem polar_plain (a b c d : Int) : polar (K := K) a b c d [] = if c = 0 then .throws else
    .ok [if 0 < c then (a : K) * (1 / 100) else a, if 0 < c then (b : K) * (1 / 100) else b, 79 * 150 / (if 0 < c then (c : K) * (1 / 10) else c * (-1 / 10)), d, 60, 0] := by
  unfold polar scaleExtra
  have hd : (60 : K) ≠ 0 := by norm_num
  have hl : ¬ (60 : K) < -90 := by norm_num
  have hu : ¬ (90 : K) < 60 := by norm_num
  have h1 : (c : K) * (1 / 10) = 0 ↔ c = 0 := mul_zero_iff (by norm_num)
  have h2 : (c : K) * (-1 / 10) = 0 ↔ c = 0 := mul_zero_iff (by norm_num)
  by_cases hc : 0 < c
  · have h0 : c ≠ 0 := by omega
    simp only [if_pos hc, List.length_nil, if_true, Res.bind, par, List.getD_cons_succ, List.getD_cons_zero, h1, if_neg h0, hd, hl, hu, or_self, if_false, List.set_cons_succ,
      List.set_cons_zero]
  · simp only [if_neg hc, List.length_nil, if_true, Res.bind, par, List.getD_cons_succ, List.getD_cons_zero, h2, hd, hl, hu, or_self, if_false, List.set_cons_succ,
      List.set_cons_zero]

theorem geographic_plain (a b c d : Int) : geographic (K := K) a b c d [] = if c = 0 ∨ d = 0 then .throws else
    .ok [(b : K) * (1 / 100), a * (1 / 100), d * (1 / 100), c * (1 / 100), 0, 0] := by
  unfold geographic scaleExtra
  have h1 : ∀ c : Int, (c : K) * (1 / 100) = 0 ↔ c = 0 := fun c => mul_zero_iff (by norm_num)
  simp only [List.length_nil, if_true, Res.bind, par, List.getD_cons_succ, List.getD_cons_zero, h1, or_comm]

theorem mercator_plain (a b c d : Int) : mercator (K := K) a b c d [] = if c = 0 ∨ d = 0 then .throws else
    .ok [(a : K) * (1 / 100), b * (1 / 100), c * (1 / 10), d * (1 / 10), 0, 0] := by
  unfold mercator scaleExtra
  have h1 : ∀ c : Int, (c : K) * (1 / 10) = 0 ↔ c = 0 := fun c => mul_zero_iff (by norm_num)
  simp only [List.length_nil, if_true, Res.bind, par, List.getD_cons_succ, List.getD_cons_zero, h1]

omit [IsStrictOrderedRing K] in
theorem lambert_plain (a b c d : Int) : lambert (K := K) a b c d [] = .throws := by
  unfold lambert scaleExtra
  simp only [List.length_nil, if_true, Res.bind, par, List.getD_cons_succ, List.getD_cons_zero]
  split_ifs <;> rfl

/-- **C132.** Without more words a grid is accepted exactly with distances other than zero, and never if it is a conic one. -/
theorem C132_accepted (type a b c d : Int) : (∃ g : List K, gridParameters type a b c d [] = .ok g) ↔
    ((type = 1 ∨ type = 4) ∧ c ≠ 0) ∨ ((type = 2 ∨ type = 3 ∨ type = 5) ∧ c ≠ 0 ∧ d ≠ 0) := by
  unfold gridParameters
  rw [polar_plain, geographic_plain, mercator_plain, lambert_plain]
  by_cases h1 : type = 1 ∨ type = 4
  · rw [if_pos h1]
    have h2 : ¬ (type = 2 ∨ type = 3 ∨ type = 5) := by omega
    by_cases hc : c = 0 <;> simp [hc, h1, h2]
  · rw [if_neg h1]
    by_cases h2 : type = 2 ∨ type = 3
    · have h2' : type = 2 ∨ type = 3 ∨ type = 5 := by omega
      rw [if_pos h2]
      by_cases hc : c = 0 <;> by_cases hd : d = 0 <;> simp [hc, hd, h1, h2']
    · rw [if_neg h2]
      by_cases h3 : type = 5
      · rw [if_pos h3]
        by_cases hc : c = 0 <;> by_cases hd : d = 0 <;> simp [hc, hd, h3]
      · rw [if_neg h3]
        have h2' : ¬ (type = 2 ∨ type = 3 ∨ type = 5) := by omega
        simp [h1, h2']

/-- **C132.** Axes of a stereographic grid without more words. -/
theorem C132_stereographic (sin : K → K) (proj : List K → K → K → Res (K × K)) (type : Int) (ht : type = 1 ∨ type = 4) (ny : Nat) (a b c d : Int) (hc : 0 < c) :
    ∃ g, grid sin proj type ny a b c d [] = .ok g ∧ g.incX = radius * (1 + sin 60) * ((c : K) / 10) / (79 * 150) ∧ g.incY = g.incX ∧
      g.startX = (1 - (a : K) / 100) * g.incX ∧ g.startY = (1 - (b : K) / 100) * g.incX := by
  unfold grid gridParameters
  rw [if_pos ht, polar_plain, if_neg (show ¬ c = 0 by omega)]
  simp only [Res.bind, if_pos ht, if_pos hc]
  have hc' : (c : K) ≠ 0 := by exact_mod_cast hc.ne'
  refine ⟨_, rfl, ?_, rfl, ?_, ?_⟩
  · unfold polarGrid
    simp only [par, List.getD_cons_succ, List.getD_cons_zero]
    field_simp
  · unfold polarGrid
    simp only [par, List.getD_cons_succ, List.getD_cons_zero]
    ring
  · unfold polarGrid
    simp only [par, List.getD_cons_succ, List.getD_cons_zero]
    ring

/-- **C132.** Axes of a geographic grid without more words: the header has latitude before longitude, in hundredths of degrees. -/
theorem C132_geographic (sin : K → K) (proj : List K → K → K → Res (K × K)) (type : Int) (ht : type = 2 ∨ type = 3) (nx ny : Nat) (a b c d : Int) (hc : c ≠ 0) (hd : d ≠ 0) :
    ∃ g, grid sin proj type ny a b c d [] = .ok g ∧ xData g nx = (List.range nx).map (fun i : Nat => (b : K) / 100 + i * (d / 100)) ∧
      yData g ny = (List.range ny).map (fun j : Nat => (a : K) / 100 + j * (c / 100)) := by
  have ht1 : ¬ (type = 1 ∨ type = 4) := by omega
  unfold grid gridParameters
  rw [if_neg ht1, if_pos ht, geographic_plain, if_neg (by simp [hc, hd])]
  simp only [Res.bind, if_neg ht1, if_pos ht]
  refine ⟨_, rfl, ?_, ?_⟩
  · unfold xData
    apply List.map_congr_left
    intro i _
    unfold geographicGrid
    split_ifs <;> simp only [par, List.getD_cons_succ, List.getD_cons_zero] <;> ring
  · rw [C132_latitudes_same]
    apply List.map_congr_left
    intro i _
    simp only [par, List.getD_cons_succ, List.getD_cons_zero]
    ring

/-- **C132.** Axes of a Mercator grid without more words: from the projected corner of the header on, distances in units of 100 metres. -/
theorem C132_mercator (sin : K → K) (proj : List K → K → K → Res (K × K)) (nx ny n : Nat) (a b c d : Int) (hc : c ≠ 0) (hd : d ≠ 0) (s : K × K)
    (hs : ∀ g, proj g (a * (1 / 100)) (b * (1 / 100)) = .ok s) :
    ∃ g, grid sin proj 5 n a b c d [] = .ok g ∧ xData g nx = (List.range nx).map (fun i : Nat => s.1 + i * (100 * c)) ∧
      yData g ny = (List.range ny).map (fun j : Nat => s.2 + j * (100 * d)) := by
  unfold grid gridParameters
  rw [mercator_plain, if_neg (show ¬ (c = 0 ∨ d = 0) by simp [hc, hd])]
  norm_num [Res.bind, par] at hs ⊢
  rw [hs]
  refine ⟨_, rfl, ?_, ?_⟩
  · unfold xData
    apply List.map_congr_left
    intro i _
    simp only
    ring
  · unfold yData
    apply List.map_congr_left
    intro i _
    simp only [Bool.false_eq_true, if_false]
    ring

/-- Latitudes from 70 degrees to the south in steps of half a degree. -/
example : ∃ g, grid (fun _ => (0 : ℚ)) (fun _ _ _ => .throws) 2 3 7000 1000 (-50) 50 [] = .ok g ∧ xData g 2 = [10, 21 / 2] ∧ yData g 3 = [70, 139 / 2, 69] ∧ g.startY = 69 :=
  ⟨⟨true, 10, 69, 1 / 2, 1 / 2⟩, by decide +kernel, by decide +kernel, by decide +kernel, rfl⟩

/-- **C132.** If another parameter of the file has more rows than the first one, latitudes that fall do not begin at that of the header. -/
theorem C132_more_rows : ∃ g, grid (fun _ => (0 : ℚ)) (fun _ _ _ => .throws) 2 3 7000 1000 (-50) 50 [] = .ok g ∧ (yData g 4)[0]? = some (141 / 2) :=
  ⟨⟨true, 10, 69, 1 / 2, 1 / 2⟩, by decide +kernel, by decide +kernel⟩

omit [LinearOrder K] [IsStrictOrderedRing K] in
theorem scaleExtra_ne_ub (g : List K) (used : Nat) (scale : K) (extra : List Int) (h0 : 0 < used) (hg : used ≤ g.length) : scaleExtra g used scale extra ≠ .ub := by
  rw [C132_extra g used scale extra h0 hg]
  split_ifs <;> simp

theorem bind_ne_ub {A B : Type} {x : Res A} {f : A → Res B} (hx : x ≠ .ub) (hf : ∀ a, f a ≠ .ub) : x.bind f ≠ .ub := by
  cases x with
  | ok a => exact hf a
  | throws => simp [Res.bind]
  | ub => exact absurd rfl hx

omit [IsStrictOrderedRing K] in
/-- **C132.** No grid is undefined, whatever the words of the file are. -/
theorem C132_defined (sin : K → K) (proj : List K → K → K → Res (K × K)) (hp : ∀ g x y, proj g x y ≠ .ub) (type : Int) (ny : Nat) (a b c d : Int) (extra : List Int) :
    grid sin proj type ny a b c d extra ≠ .ub := by
  unfold grid
  refine bind_ne_ub ?_ fun g => ?_
  · unfold gridParameters polar geographic mercator lambert
    split_ifs
    all_goals
      first
      | refine bind_ne_ub (scaleExtra_ne_ub _ _ _ _ (by norm_num) (by simp)) fun g => ?_
        split_ifs <;> simp
      | simp
  · split_ifs
    · simp
    · simp
    · exact bind_ne_ub (hp _ _ _) fun s => by simp

end Fimex.FeltGrid
