import Verif.Vertical.Converters
import Verif.Vertical.ShapesProps
import Verif.Vertical.LevelsLemmas
import Verif.ArrayLoop.Blocks

/-!
# Helper lemmas for vertical converters
-/

namespace Fimex.Converters

open Fimex.SB Fimex.ArrayLoop Fimex.Shapes Fimex.Levels Fimex.Vertical

/-! ## Arrays that share all of their dimensions -/

/-- The array with the given dimensions. -/
def full (len : String → ℕ) (names : List String) : Dims :=
  ⟨names, names.map len, (List.range names.length).map fun i => ((names.map len).take i).prod, names.map fun _ => true⟩

theorem full_rank (len : String → ℕ) (names : List String) : (full len names).rank = names.length := by
  simp [full, Dims.rank]

theorem full_wf (len : String → ℕ) {names : List String} (h : names.Nodup) : WF (full len names) :=
  ⟨by simp [full, Dims.rank], by simp [full, Dims.rank], by simp [full, Dims.rank], h⟩

theorem full_contiguous (len : String → ℕ) (names : List String) : Contiguous (full len names) := by
  intro i hi
  rw [full_rank] at hi
  simp [full, hi]

theorem full_named (len : String → ℕ) (names : List String) (σ : String → ℕ) :
    named (full len names) σ = names.map σ := by
  unfold named full
  dsimp only
  rw [List.zipWith_map_right, List.zipWith_self]
  simp

theorem full_pos (len : String → ℕ) (names : List String) (σ : String → ℕ) :
    pos (full len names).length (named (full len names) σ) = place len names σ := by
  rw [full_named]; rfl

theorem full_lenOK (len : String → ℕ) (names : List String) : LenOK len (full len names) := by
  intro i n hi _
  have hi' : names[i]? = some n := hi
  simp [full, hi']

theorem full_congr {len len' : String → ℕ} {names : List String} (h : ∀ d ∈ names, len d = len' d) :
    full len names = full len' names := by
  unfold full
  rw [List.map_congr_left h]

theorem full_volume (len : String → ℕ) (names : List String) : (full len names).volume = (names.map len).prod := by
  unfold Dims.volume
  by_cases h : names = []
  · subst h; simp [full]
  · have hne : (full len names).length ≠ [] := by simpa [full] using h
    rw [if_neg hne]
    obtain ⟨l, d, rfl⟩ : ∃ l d, names = l ++ [d] := ⟨names.dropLast, names.getLast h, (List.dropLast_append_getLast h).symm⟩
    simp [full, List.range_succ]

theorem sliceDims_ok {names : List String} {reg : String → ℕ × ℕ} {b : Builder} (hn : names.Nodup)
    (hb : Asks names reg b) (hpos : ∀ d ∈ names, 0 < (reg d).2) :
    sliceDims b = .ok (full (fun d => (reg d).2) names) := by
  unfold sliceDims
  rw [hb.names hn, hb.size]
  exact makeDims_ok (size := fun d => (reg d).2) hpos

/-! ## Values of an array by the names of the indices -/

/-- `l` has the values of `f` for all indices of an array with these dimensions. -/
structure Values {V : Type} (len : String → ℕ) (names : List String) (f : (String → ℕ) → V) (l : List V) : Prop where
  length : l.length = (names.map len).prod
  get : ∀ σ : String → ℕ, (∀ d ∈ names, σ d < len d) → l[place len names σ]? = some (f σ)

/-- The first dimensions at their beginning. -/
def zeroed (ds : List String) (τ : String → ℕ) (d : String) : ℕ := if d ∈ ds then 0 else τ d

/-- What a call does: the result for each of `n` places, from the values of the arrays at that place (`true`) or at
the first place (`false`). -/
def CallOK {V : Type} (roles : List Bool) (f : List V → V) (call : ℕ → List (List V) → Res (List V)) (n : ℕ) : Prop :=
  ∀ (ts : List (List V)) (vals : ℕ → List V), ts.length = roles.length →
    (∀ i, i < n → (vals i).length = roles.length ∧ ∀ j, j < roles.length →
      (ts.getD j [])[if roles.getD j false then i else 0]? = (vals i)[j]?) →
    call n ts = .ok ((List.range n).map fun i => f (vals i))

theorem writeBlock_ok {V : Type} {l : List V} {i : ℕ} {vals : List V} (h : i + vals.length ≤ l.length) :
    ∃ l', writeBlock l (i : ℤ) vals = .ok l' ∧ l'.length = l.length ∧ (∀ j, j < vals.length → l'[i + j]? = vals[j]?) ∧
      ∀ j, (j < i ∨ i + vals.length ≤ j) → l'[j]? = l[j]? := by
  refine ⟨l.take i ++ vals ++ l.drop (i + vals.length), by simp [writeBlock, h], ?_, ?_, ?_⟩
  · simp; omega
  · intro j hj
    have hi : (l.take i).length = i := by simp; omega
    rw [List.append_assoc, List.getElem?_append_right (by omega), List.getElem?_append_left (by omega)]
    congr 1
    omega
  · intro j hj
    rcases hj with hj | hj
    · rw [List.append_assoc, List.getElem?_append_left (by simp; omega), List.getElem?_take, if_pos hj]
    · rw [List.getElem?_append_right (by simp; omega), List.getElem?_drop]
      congr 1
      simp; omega

theorem mapM_pointer {V : Type} : ∀ (vals : List (List V)) (is : List ℕ), vals.length = is.length →
    ((vals.zip (is.map fun i : ℕ => (i : ℤ))).mapM fun p => pointer p.1 p.2) =
      .ok (List.zipWith (fun l i => l.drop i) vals is)
  | [], [], _ => rfl
  | v :: vals, i :: is, h => by
    rw [List.map_cons, List.zip_cons_cons, List.mapM_cons, mapM_pointer vals is (by simpa using h)]
    simp [pointer]
  | [], _ :: _, h => by simp at h
  | _ :: _, [], h => by simp at h

/-- The index assignment of the block place `j`. -/
theorem block_assign {len : String → ℕ} {ds : List String} (hn : ds.Nodup) (σ : String → ℕ) {j : ℕ}
    (hj : j < (ds.map len).prod) : ∃ τ : String → ℕ, (∀ d, d ∉ ds → τ d = σ d) ∧ (∀ d ∈ ds, τ d < len d) ∧
      pos (ds.map len) (ds.map τ) = j := by
  obtain ⟨q, hq, e⟩ := exists_pos hj
  refine ⟨fun d => if d ∈ ds then assign ds q d else σ d, fun d hd => if_neg hd, fun d hd => ?_, ?_⟩
  · dsimp only
    rw [if_pos hd]
    exact inShape_of_map hq d hd
  · have hl : q.length = ds.length := by have := InShape.length_eq hq; simpa using this
    have : (ds.map fun d => if d ∈ ds then assign ds q d else σ d) = ds.map (assign ds q) :=
      List.map_congr_left fun d hd => if_pos hd
    rw [this, map_assign hn hl]
    exact e

theorem split_dims {ds : List String} {k : ℕ} {d : String} (hn : ds.Nodup) (hd : d ∈ ds) :
    (d ∈ ds.take k ∧ d ∉ ds.drop k) ∨ (d ∉ ds.take k ∧ d ∈ ds.drop k) := by
  rw [← List.take_append_drop k ds] at hn hd
  rw [List.nodup_append] at hn
  rcases List.mem_append.1 hd with h | h
  · exact Or.inl ⟨h, fun h' => hn.2.2 d h d h' rfl⟩
  · exact Or.inr ⟨fun h' => hn.2.2 d h' d h rfl, h⟩

/-! ## The common beginning of the shapes -/

/-- `P` is the longest common beginning of the shapes. -/
structure Beginning (P : List String) (shapes : List (List String)) : Prop where
  begins : ∀ s ∈ shapes, P <+: s
  longest : ∀ Q : List String, (∀ s ∈ shapes, Q <+: s) → Q.length ≤ P.length

theorem beginning_unique {P Q : List String} {shapes : List (List String)} (hne : shapes ≠ []) (hP : Beginning P shapes)
    (hQ : Beginning Q shapes) : P = Q := by
  obtain ⟨s, hs⟩ := List.exists_mem_of_ne_nil _ hne
  have h1 := hP.longest Q hQ.begins
  have h2 := hQ.longest P hP.begins
  have e1 := List.prefix_iff_eq_take.1 (hP.begins s hs)
  have e2 := List.prefix_iff_eq_take.1 (hQ.begins s hs)
  rw [e1, e2, show P.length = Q.length by omega]

/-- While arrays with a common beginning `P` are added, the group keeps it. -/
structure Keeps (P : List String) (g : Group) : Prop where
  arrays : g.arrays ≠ []
  dims : P <+: g.dims
  shared : ∀ k, g.sharedDims = some k → P.length ≤ k

theorem minimize_keeps {P : List String} {g g' : Group} (h : Keeps P g) {n : ℕ} (hn : P.length ≤ n)
    (e : g.minimizeShared n = .ok g') : Keeps P g' := by
  unfold Group.minimizeShared at e
  split_ifs at e
  · cases e
    refine ⟨h.arrays, h.dims, fun k hk => ?_⟩
    cases hk
    exact hn
  · cases e
    exact h

theorem full_isShared {len : String → ℕ} {names : List String} {s : ℕ} (hs : s < names.length) :
    (full len names).isShared s = true := by
  unfold Dims.isShared
  rw [full_rank, if_pos hs]
  simp [full, List.getD_eq_getElem?_getD, hs]

theorem addStep_keeps {P : List String} {len : String → ℕ} {names : List String} (hn : names.Nodup) (hP : P <+: names)
    {g g' : Group} {m m' : List (Option ℕ)} {s : ℕ} (hs : s < names.length) (hd : g.dims.Nodup) (h : Keeps P g)
    (e : addStep (full len names) g m s = .ok (g', m')) : Keeps P g' ∧ g'.dims.Nodup := by
  have hmin : ∀ {g g' : Group} {n : ℕ}, g.dims.Nodup → g.minimizeShared n = .ok g' → g'.dims.Nodup := by
    intro g g' n h e
    unfold Group.minimizeShared at e
    split_ifs at e <;> cases e <;> exact h
  unfold addStep at e
  rw [full_isShared hs] at e
  simp only [Bool.true_eq_false, if_false] at e
  have hname : (full len names).name.getD s "" = names[s] := by simp [full, List.getD_eq_getElem?_getD, hs]
  rw [hname] at e
  have hPs : ∀ i, i < P.length → names[i]? = P[i]? ∧ g.dims[i]? = P[i]? := by
    intro i hi
    constructor
    · obtain ⟨t, ht⟩ := hP
      rw [← ht, List.getElem?_append_left hi]
    · obtain ⟨t, ht⟩ := h.dims
      rw [← ht, List.getElem?_append_left hi]
  have hsn : names[s]? = some names[s] := List.getElem?_eq_getElem hs
  have hlow : ∀ i, i < P.length → P[i]? = some names[s] → i = s := by
    intro i hi hi'
    exact nodup_get_inj hn ((hPs i hi).1.trans hi') hsn
  cases hpos : g.position names[s] with
  | some d =>
    rw [hpos] at e
    dsimp only at e
    split_ifs at e with h1 h2
    · have hdg : g.dims[d]? = some names[s] := findIdx?_get hpos
      obtain ⟨g1, e1, e2⟩ := Res.bind_eq_ok.1 e
      cases e2
      refine ⟨minimize_keeps h ?_ e1, hmin hd e1⟩
      by_contra hlt
      rw [Nat.not_le] at hlt
      by_cases hsP : s < P.length
      · exact h2 (nodup_get_inj hd hdg ((hPs s hsP).2.trans ((hPs s hsP).1.symm.trans hsn)))
      · have hdP : d < P.length := by omega
        exact hsP (hlow d hdP ((hPs d hdP).2.symm.trans hdg) ▸ hdP)
    · cases e; exact ⟨h, hd⟩
  | none =>
    rw [hpos] at e
    dsimp only at e
    rw [if_pos h.arrays] at e
    obtain ⟨g1, e1, e2⟩ := Res.bind_eq_ok.1 e
    cases e2
    have hnot := findIdx?_none hpos
    have hk : Keeps P { g with dims := g.dims ++ [names[s]], lengths := g.lengths ++ [(full len names).length.getD s 0] } :=
      ⟨h.arrays, h.dims.trans (List.prefix_append _ _), h.shared⟩
    have hd1 : (g.dims ++ [names[s]]).Nodup :=
      List.nodup_append.2 ⟨hd, List.nodup_singleton _, fun a ha b hb hab => by
        rw [List.mem_singleton] at hb; subst hb hab; exact hnot ha⟩
    have hsP : P.length ≤ s := by
      by_contra hlt
      rw [Nat.not_le] at hlt
      exact hnot (List.mem_of_getElem? ((hPs s hlt).2.trans ((hPs s hlt).1.symm.trans hsn)))
    have h2 := minimize_keeps hk hsP e1
    have h3 : g1.dims.Nodup := hmin hd1 e1
    refine ⟨⟨?_, h2.dims, h2.shared⟩, h3⟩
    simpa using h2.arrays

theorem addLoop_keeps {P : List String} {len : String → ℕ} {names : List String} (hn : names.Nodup) (hP : P <+: names) :
    ∀ (n s : ℕ) (g g' : Group) (m m' : List (Option ℕ)), s + n = names.length → g.dims.Nodup → Keeps P g →
    addLoop (full len names) n s g m = .ok (g', m') → Keeps P g'
  | 0, _, g, g', m, m', _, _, h, e => by cases e; exact h
  | n + 1, s, g, g', m, m', hs, hd, h, e => by
    rw [addLoop] at e
    obtain ⟨r, e1, e2⟩ := Res.bind_eq_ok.1 e
    obtain ⟨k1, k2⟩ := addStep_keeps hn hP (by omega) hd h e1
    exact addLoop_keeps hn hP n (s + 1) r.1 g' r.2 m' (by omega) k2 k1 e2

theorem add_keeps {P : List String} {len : String → ℕ} {names : List String} (hn : names.Nodup) (hP : P <+: names)
    {g g' : Group} (hd : g.dims.Nodup) (h : Keeps P g) (e : g.add (full len names) = .ok g') : Keeps P g' := by
  unfold Group.add at e
  obtain ⟨r, e1, e2⟩ := Res.bind_eq_ok.1 e
  obtain ⟨g1, m1⟩ := r
  obtain ⟨g2, e3, e4⟩ := Res.bind_eq_ok.1 e2
  cases e4
  have := minimize_keeps (addLoop_keeps hn hP _ 0 g g1 _ m1 (by rw [full_rank]; omega) hd h e1)
    (by rw [full_rank]; exact hP.length_le) e3
  exact ⟨by simp, this.dims, this.shared⟩

theorem addLoop_first {len : String → ℕ} {names : List String} (hn : names.Nodup) :
    ∀ (n s : ℕ) (g g' : Group) (m m' : List (Option ℕ)), s + n = names.length → g.arrays = [] → g.sharedDims = none →
    g.dims = names.take s → addLoop (full len names) n s g m = .ok (g', m') → g'.dims = names ∧ g'.sharedDims = none
  | 0, s, g, g', m, m', hs, _, h1, h2, e => by
    cases e
    refine ⟨?_, h1⟩
    rw [h2, List.take_of_length_le (by omega)]
  | n + 1, s, g, g', m, m', hs, h0, h1, h2, e => by
    rw [addLoop] at e
    obtain ⟨r, e1, e2⟩ := Res.bind_eq_ok.1 e
    have hs' : s < names.length := by omega
    unfold addStep at e1
    rw [full_isShared hs'] at e1
    have hname : (full len names).name.getD s "" = names[s] := by simp [full, List.getD_eq_getElem?_getD, hs']
    simp only [Bool.true_eq_false, if_false, hname] at e1
    have hpos : g.position names[s] = none := by
      unfold Group.position
      rw [List.findIdx?_eq_none_iff]
      intro x hx
      rw [h2] at hx
      obtain ⟨i, hi, rfl⟩ := List.mem_iff_getElem.1 hx
      simp only [List.getElem_take, beq_eq_false_iff_ne, ne_eq]
      intro e
      have hi' : i < s := by simp at hi; omega
      have := (hn.getElem_inj_iff).1 e
      omega
    rw [hpos] at e1
    dsimp only at e1
    rw [if_neg (by simp [h0])] at e1
    cases e1
    refine addLoop_first hn n (s + 1) { g with
      dims := g.dims ++ [names[s]], lengths := g.lengths ++ [(full len names).length.getD s 0] } g' (m ++ [some s]) m'
      (by omega) h0 h1 ?_ e2
    show g.dims ++ [names[s]] = _
    rw [h2, List.take_append_getElem hs']

theorem add_first {len : String → ℕ} {names : List String} (hn : names.Nodup) {g' : Group}
    (e : emptyGroup.add (full len names) = .ok g') : Keeps names g' := by
  unfold Group.add at e
  obtain ⟨r, e1, e2⟩ := Res.bind_eq_ok.1 e
  obtain ⟨g1, m1⟩ := r
  obtain ⟨g2, e3, e4⟩ := Res.bind_eq_ok.1 e2
  cases e4
  obtain ⟨k1, k2⟩ := addLoop_first hn _ 0 emptyGroup g1 _ m1 (by rw [full_rank]; omega) rfl rfl rfl e1
  unfold Group.minimizeShared at e3
  rw [k2] at e3
  simp only [if_true] at e3
  split_ifs at e3
  cases e3
  refine ⟨by simp, by simp [k1], fun k hk => ?_⟩
  cases hk
  rw [full_rank]

theorem fold_keeps {P : List String} {len : String → ℕ} : ∀ (shapes : List (List String)) (g g' : Group),
    (∀ s ∈ shapes, s.Nodup ∧ P <+: s) → GroupOK g → (g.arrays = [] → g.sharedDims = none) →
    (g.sharedDims = none → g.dims = []) → Sized len g → Keeps P g →
    (shapes.map (full len)).foldlM Group.add g = .ok g' → Keeps P g'
  | [], g, g', _, _, _, _, _, h, e => by cases e; exact h
  | s :: shapes, g, g', hs, hg, h1, h2, hz, h, e => by
    rw [List.map_cons, List.foldlM_cons] at e
    obtain ⟨g1, e1, e2⟩ := Res.bind_eq_ok.1 e
    obtain ⟨hn, hP⟩ := hs s (by simp)
    obtain ⟨g1', e1', k1, k2, k3, k4, k5⟩ := add_sized hg hz (full_wf len hn) (full_lenOK len s) h1 h2
    rw [e1] at e1'
    cases e1'
    refine fold_keeps shapes g1 g' (fun s hs' => hs s (by simp [hs'])) k1 (fun h => ?_) (fun h => absurd h k4) k2
      (add_keeps hn hP hg.nodup h e1) e2
    rw [h] at k3
    simp at k3

theorem group_ok {len : String → ℕ} {shapes : List (List String)} (hne : shapes ≠ []) (hn : ∀ s ∈ shapes, s.Nodup) :
    ∃ g k, groupOf (shapes.map (full len)) = .ok g ∧ GroupOK g ∧ Sized len g ∧
      g.arrays.map Prod.fst = shapes.map (full len) ∧ g.sharedDims = some k ∧ Beginning (g.dims.take k) shapes := by
  obtain ⟨g, e, hg, hz, hm, h1, h2, -⟩ := foldlM_add_sized (len := len) (shapes.map (full len)) emptyGroup emptyGroup_ok
    (emptyGroup_sized len) (fun _ => rfl) (fun _ => rfl) (by
      intro a ha
      obtain ⟨s, hs, rfl⟩ := List.mem_map.1 ha
      exact ⟨full_wf len (hn s hs), full_lenOK len s⟩)
  have hm' : g.arrays.map Prod.fst = shapes.map (full len) := by rw [hm]; rfl
  cases hk : g.sharedDims with
  | none =>
    have := hg.non hk
    rw [this] at hm'
    exact absurd (List.map_eq_nil_iff.1 hm'.symm) hne
  | some k =>
    obtain ⟨hkl, -⟩ := hg.vol k hk
    have hkd : k ≤ g.dims.length := by rw [hg.len]; exact hkl
    refine ⟨g, k, e, hg, hz, hm', hk, ?_, ?_⟩
    · intro s hs
      have : full len s ∈ g.arrays.map Prod.fst := by rw [hm']; exact List.mem_map_of_mem hs
      obtain ⟨am, ham, e1⟩ := List.mem_map.1 this
      obtain ⟨p1, p2⟩ := hg.pre k hk am ham
      obtain ⟨w, mk⟩ := hg.arr am ham
      rw [e1] at p1 p2 mk
      rw [full_rank] at p1 p2 mk
      have : g.dims.take k = s.take k := by
        apply List.ext_getElem?
        intro i
        rw [List.getElem?_take, List.getElem?_take]
        split_ifs with hi
        · have hid : i < g.dims.length := by omega
          have hmi := mk.map i _ (List.getElem?_eq_getElem hid)
          rw [p1 i hi (by omega)] at hmi
          obtain ⟨-, -, s3⟩ := sharedBelow_some (Option.some.inj hmi).symm
          rw [List.getElem?_eq_getElem hid, ← s3]
          rfl
        · rfl
      rw [this]
      exact List.take_prefix _ _
    · intro Q hQ
      rw [List.length_take, Nat.min_eq_left hkd]
      cases shapes with
      | nil => exact absurd rfl hne
      | cons s shapes =>
        rw [List.map_cons, List.foldlM_cons] at e
        obtain ⟨g1, e1, e2⟩ := Res.bind_eq_ok.1 e
        have hns := hn s (by simp)
        obtain ⟨g1', e1', k1, k2, k3, k4, k5⟩ := add_sized emptyGroup_ok (emptyGroup_sized len) (full_wf len hns)
          (full_lenOK len s) (fun _ => rfl) (fun _ => rfl)
        rw [e1] at e1'
        cases e1'
        have f := add_first hns e1
        have f' : Keeps Q g1 := ⟨f.arrays, (hQ s (by simp)).trans f.dims, fun k hk =>
          Nat.le_trans (hQ s (by simp)).length_le (f.shared k hk)⟩
        exact (fold_keeps shapes g1 g (fun t ht => ⟨hn t (by simp [ht]), hQ t (by simp [ht])⟩) k1 (fun h => absurd h f.arrays)
          (fun h => absurd h k4) k2 f' e2).shared k hk

/-! ## The loop -/

/-- An array with its values by the names of the indices. -/
structure In (V : Type) where
  names : List String
  data : List V
  val : (String → ℕ) → V

/-- Index 0 for the dimensions that are not asked for. -/
def within (org : List String) (τ : String → ℕ) (d : String) : ℕ := if d ∈ org then τ d else 0

theorem Values.congr {V : Type} {len : String → ℕ} {names : List String} {f : (String → ℕ) → V} {l : List V}
    (h : Values len names f l) {σ τ : String → ℕ} (h1 : ∀ d ∈ names, σ d < len d) (h2 : ∀ d ∈ names, σ d = τ d) :
    f σ = f τ := by
  have a := h.get σ h1
  have b := h.get τ fun d hd => h2 d hd ▸ h1 d hd
  rw [place_congr h2, b] at a
  exact (Option.some.inj a).symm

theorem loop_ok {V : Type} {len : String → ℕ} {org : List String} (hpos : ∀ d, 0 < len d)
    (before after : List (In V)) (hin : ∀ a ∈ before ++ after, a.names.Nodup ∧ Values len a.names a.val a.data ∧
      (∀ d ∈ a.names, d ∉ org → len d = 1)) {g : Group} {k : ℕ} (hg : GroupOK g) (hz : Sized len g)
    (hk : g.sharedDims = some k)
    (hm : g.arrays.map Prod.fst = (before.map In.names ++ org :: after.map In.names).map (full len)) (roles : List Bool)
    (hroles : roles.length = (before ++ after).length) (f : List V → V) (call : ℕ → List (List V) → Res (List V))
    (hcall : CallOK roles f call ((g.dims.take k).map len).prod) (junk : ℕ → V) :
    ∃ L : List V, doLoop g (blockStep g.sharedVolume before.length ((before ++ after).map In.data) call)
        (loopLengths g).prod (start g) ((List.range (full len org).volume).map junk) = .ok L ∧
      Values len org (fun τ => f (List.zipWith (fun a (role : Bool) =>
        a.val (if role then within org τ else zeroed (g.dims.take k) (within org τ))) (before ++ after) roles)) L := by
  set shapes := before.map In.names ++ org :: after.map In.names with hshapes
  have hc : ∀ a ∈ shapes.map (full len), Contiguous a := by
    intro a ha
    obtain ⟨s, -, rfl⟩ := List.mem_map.1 ha
    exact full_contiguous len s
  have bv := blockVisited hg hz hk hm hc (fun d _ => hpos d)
  have hll : loopLengths g = (g.dims.drop k).map len := by simp [loopLengths, hk, hz.lengths]
  have hvol := bv.volume
  set vol := ((g.dims.take k).map len).prod with hvoldef
  have hvp : 0 < vol := prod_positive _ (by intro x hx; obtain ⟨d, -, rfl⟩ := List.mem_map.1 hx; exact hpos d)
  have hnt : (g.dims.take k).Nodup := hg.nodup.sublist (List.take_sublist _ _)
  -- dimensions of the arrays are dimensions of the group
  have hsub : ∀ s ∈ shapes, ∀ d ∈ s, d ∈ g.dims := by
    intro s hs d hd
    have : full len s ∈ g.arrays.map Prod.fst := by rw [hm]; exact List.mem_map_of_mem hs
    obtain ⟨am, ham, e1⟩ := List.mem_map.1 this
    obtain ⟨i, hi⟩ := List.mem_iff_getElem?.1 hd
    refine shared_in_dims hg ham (i := i) (by rw [e1]; exact hi) ?_
    rw [e1]
    have := (List.getElem?_eq_some_iff.1 hi).1
    simp [full, List.getD_eq_getElem?_getD, this]
  have hone : ∀ d ∈ g.dims, d ∉ org → len d = 1 := by
    intro d hd hdo
    obtain ⟨am, ham, i, hi, -⟩ := hz.dims d hd
    have h1 : am.1 ∈ shapes.map (full len) := by rw [← hm]; exact List.mem_map_of_mem ham
    obtain ⟨s, hs, e1⟩ := List.mem_map.1 h1
    rw [← e1] at hi
    have hds : d ∈ s := List.mem_of_getElem? (l := s) hi
    rw [hshapes, List.mem_append, List.mem_cons] at hs
    rcases hs with h | rfl | h
    · obtain ⟨a, ha, rfl⟩ := List.mem_map.1 h
      exact (hin a (List.mem_append_left _ ha)).2.2 d hds hdo
    · exact absurd hds hdo
    · obtain ⟨a, ha, rfl⟩ := List.mem_map.1 h
      exact (hin a (List.mem_append_right _ ha)).2.2 d hds hdo
  have horg : org ∈ shapes := by rw [hshapes]; simp
  have hnames : ∀ a ∈ before ++ after, a.names ∈ shapes := by
    intro a ha
    rw [hshapes]
    rcases List.mem_append.1 ha with h | h
    · exact List.mem_append_left _ (List.mem_map_of_mem h)
    · exact List.mem_append_right _ (List.mem_cons_of_mem _ (List.mem_map_of_mem h))
  have hblock : ∀ s ∈ shapes, ∀ σ τ : String → ℕ, (∀ d ∈ g.dims.take k, σ d = 0) → (∀ d ∈ g.dims.drop k, σ d = τ d) →
      place len s τ = place len s σ + pos ((g.dims.take k).map len) ((g.dims.take k).map τ) := by
    intro s hs σ τ h1 h2
    have := bv.block (full len s) (List.mem_map_of_mem hs) σ τ h1 h2
    rwa [full_pos, full_pos] at this
  -- the invariant
  set F : (String → ℕ) → V := fun τ => f (List.zipWith (fun a (role : Bool) =>
        a.val (if role then within org τ else zeroed (g.dims.take k) (within org τ))) (before ++ after) roles) with hF
  set Inv : ℕ → List V → Prop := fun n L => L.length = (org.map len).prod ∧ ∀ τ : String → ℕ, (∀ d ∈ org, τ d < len d) →
    pos ((g.dims.drop k).map len) ((g.dims.drop k).map (within org τ)) < n → L[place len org τ]? = some (F τ) with hInv
  have hw : ∀ τ : String → ℕ, (∀ d ∈ org, τ d < len d) → ∀ d, within org τ d < len d := by
    intro τ hτ d
    unfold within
    split_ifs with h
    · exact hτ d h
    · exact hpos d
  have hstep : ∀ n, n < ((g.dims.drop k).map len).prod → ∀ L, Inv n L →
      ∃ L', blockStep g.sharedVolume before.length ((before ++ after).map In.data) call (ArrayLoop.after g n).idx L = .ok L' ∧
        Inv (n + 1) L' := by
    intro n hn L hL
    obtain ⟨σ, hσ0, hσ, hσn, hidx⟩ := bv.visit n hn
    have hidx' : (ArrayLoop.after g n).idx = before.map (fun a => (place len a.names σ : ℤ)) ++
        (place len org σ : ℤ) :: after.map (fun a => (place len a.names σ : ℤ)) := by
      rw [hidx, List.map_map, hshapes]
      simp only [List.map_append, List.map_cons, List.map_map, Function.comp_def, full_pos]
    have herase : (ArrayLoop.after g n).idx.eraseIdx before.length =
        ((before ++ after).map fun a => place len a.names σ).map fun i : ℕ => (i : ℤ) := by
      rw [hidx', List.eraseIdx_append_of_length_le (by simp)]
      simp [List.map_map, Function.comp_def]
    have hout : (ArrayLoop.after g n).idx.getD before.length 0 = (place len org σ : ℤ) := by
      rw [hidx', List.getD_eq_getElem?_getD, List.getElem?_append_right (by simp)]
      simp
    -- the places of the block
    have hex : ∀ i, ∃ τ : String → ℕ, i < vol → (∀ d, d ∉ g.dims.take k → τ d = σ d) ∧
        (∀ d ∈ g.dims.take k, τ d < len d) ∧ pos ((g.dims.take k).map len) ((g.dims.take k).map τ) = i := by
      intro i
      by_cases hi : i < vol
      · obtain ⟨τ, h⟩ := block_assign hnt σ hi
        exact ⟨τ, fun _ => h⟩
      · exact ⟨σ, fun h => absurd h hi⟩
    choose ρ hρ using hex
    have hρd : ∀ i, i < vol → ∀ d ∈ g.dims.drop k, σ d = ρ i d := by
      intro i hi d hd
      rcases split_dims (k := k) hg.nodup (List.mem_of_mem_drop hd) with ⟨-, h⟩ | ⟨h, -⟩
      · exact absurd hd h
      · exact ((hρ i hi).1 d h).symm
    have hρl : ∀ i, i < vol → ∀ d ∈ g.dims, ρ i d < len d := by
      intro i hi d hd
      rcases split_dims (k := k) hg.nodup hd with ⟨h, -⟩ | ⟨-, h⟩
      · exact (hρ i hi).2.1 d h
      · rw [← hρd i hi d h]; exact hσ d h
    have hσl : ∀ d ∈ g.dims, σ d < len d := by
      intro d hd
      rcases split_dims (k := k) hg.nodup hd with ⟨h, -⟩ | ⟨-, h⟩
      · rw [hσ0 d h]; exact hpos d
      · exact hσ d h
    have hρp : ∀ i, i < vol → ∀ s ∈ shapes, place len s (ρ i) = place len s σ + i := by
      intro i hi s hs
      rw [hblock s hs σ (ρ i) hσ0 (hρd i hi), (hρ i hi).2.2]
    -- the call
    have hts : (List.zipWith (fun (l : List V) i => l.drop i) ((before ++ after).map In.data)
        ((before ++ after).map fun a => place len a.names σ)) =
        (before ++ after).map fun a => a.data.drop (place len a.names σ) := by
      rw [List.zipWith_map, List.zipWith_self]
    have hc := hcall ((before ++ after).map fun a => a.data.drop (place len a.names σ))
      (fun i => List.zipWith (fun a (role : Bool) => a.val (if role then ρ i else σ)) (before ++ after) roles)
      (by simp [hroles]) (by
        intro i hi
        refine ⟨by simp [hroles], fun j hj => ?_⟩
        have hj' : j < (before ++ after).length := by omega
        have ha : (before ++ after)[j] ∈ before ++ after := List.getElem_mem hj'
        obtain ⟨-, hv, -⟩ := hin _ ha
        rw [List.getElem?_zipWith, List.getElem?_eq_getElem hj', List.getElem?_eq_getElem hj,
          List.getD_eq_getElem?_getD, List.getElem?_map, List.getElem?_eq_getElem hj', List.getD_eq_getElem?_getD,
          List.getElem?_eq_getElem hj]
        dsimp only [Option.map_some, Option.getD_some]
        rw [List.getElem?_drop]
        cases roles[j] with
        | true =>
          simp only [if_true]
          rw [← hρp i hi _ (hnames _ ha)]
          exact hv.get _ fun d hd => hρl i hi d (hsub _ (hnames _ ha) d hd)
        | false =>
          simp only [Bool.false_eq_true, if_false, Nat.add_zero]
          exact hv.get _ fun d hd => hσl d (hsub _ (hnames _ ha) d hd))
    -- writing
    set blk := (List.range vol).map fun i => f (List.zipWith (fun a (role : Bool) => a.val (if role then ρ i else σ))
      (before ++ after) roles) with hblk
    have hblen : blk.length = vol := by simp [hblk]
    have hfit : place len org σ + blk.length ≤ L.length := by
      rw [hblen, hL.1]
      have h1 := hρp (vol - 1) (by omega) org horg
      have h2 := place_lt (len := len) (names := org) (σ := ρ (vol - 1)) fun d hd =>
        hρl (vol - 1) (by omega) d (hsub _ horg d hd)
      omega
    obtain ⟨L', e', hlen', hnew, hold⟩ := writeBlock_ok hfit
    refine ⟨L', ?_, by rw [hlen', hL.1], fun τ hτ hlt => ?_⟩
    · unfold blockStep
      rw [herase, mapM_pointer _ _ (by simp), hts, hvol, hout, Res.ok_bind]
      simp only [hc, Res.ok_bind]
      exact e'
    have hτw := hw τ hτ
    have hwp : place len org (within org τ) = place len org τ := place_congr fun d hd => if_pos hd
    rcases Nat.lt_succ_iff_lt_or_eq.1 hlt with hlt | heq
    · rw [hold _ ?_]
      · exact hL.2 τ hτ hlt
      by_contra hne
      rw [not_or, Nat.not_lt, Nat.not_le, hblen] at hne
      have hi : place len org τ - place len org σ < vol := by omega
      have hpl := hρp _ hi org horg
      rw [Nat.add_sub_cancel' hne.1] at hpl
      have hag := place_inj (fun d hd => hρl _ hi d (hsub _ horg d hd)) hτ hpl
      have : (g.dims.drop k).map (within org τ) = (g.dims.drop k).map σ := by
        refine List.map_congr_left fun d hd => ?_
        unfold within
        split_ifs with hdo
        · rw [← hag d hdo, hρd _ hi d hd]
        · have h1 := hσ d hd
          rw [hone d (List.mem_of_mem_drop hd) hdo] at h1
          omega
      rw [this, hσn] at hlt
      exact Nat.lt_irrefl _ hlt
    · have hagd : ∀ d ∈ g.dims.drop k, within org τ d = σ d := by
        have := pos_inj (inShape_map fun d _ => hτw d) (inShape_map hσ) (heq.trans hσn.symm)
        exact fun d hd => List.map_inj_left.1 this d hd
      set i := pos ((g.dims.take k).map len) ((g.dims.take k).map (within org τ)) with hi
      have hiv : i < vol := pos_lt (inShape_map fun d _ => hτw d)
      have hpl : place len org τ = place len org σ + i := by
        rw [← hwp]
        exact hblock org horg σ _ hσ0 fun d hd => (hagd d hd).symm
      have hagt : ∀ d ∈ g.dims.take k, ρ i d = within org τ d := by
        have := pos_inj (inShape_map (hρ i hiv).2.1) (inShape_map fun d _ => hτw d) (hρ i hiv).2.2
        exact fun d hd => List.map_inj_left.1 this d hd
      rw [hpl, hnew i (by rw [hblen]; exact hiv), hblk, List.getElem?_map, List.getElem?_range hiv, Option.map_some, hF]
      congr 2
      apply List.ext_getElem
      · simp
      · intro j h1 h2
        have hj' : j < (before ++ after).length := by simp at h1 ⊢; omega
        have ha : (before ++ after)[j] ∈ before ++ after := List.getElem_mem hj'
        obtain ⟨-, hv, -⟩ := hin _ ha
        rw [List.getElem_zipWith, List.getElem_zipWith]
        cases roles[j] with
        | true =>
          simp only [if_true]
          refine hv.congr (fun d hd => hρl i hiv d (hsub _ (hnames _ ha) d hd)) fun d hd => ?_
          rcases split_dims (k := k) hg.nodup (hsub _ (hnames _ ha) d hd) with ⟨h, -⟩ | ⟨-, h⟩
          · exact hagt d h
          · rw [← hρd i hiv d h, hagd d h]
        | false =>
          simp only [Bool.false_eq_true, if_false]
          refine hv.congr (fun d hd => hσl d (hsub _ (hnames _ ha) d hd)) fun d hd => ?_
          unfold zeroed
          rcases split_dims (k := k) hg.nodup (hsub _ (hnames _ ha) d hd) with ⟨h, -⟩ | ⟨h', h⟩
          · rw [if_pos h, hσ0 d h]
          · rw [if_neg h', hagd d h]
  have h0 : Inv 0 ((List.range (full len org).volume).map junk) := by
    refine ⟨by simp [full_volume], fun τ _ h => absurd h (Nat.not_lt_zero _)⟩
  rw [hll]
  obtain ⟨L, e, h1, h2⟩ := doLoop_inv bv.positive bv.last _ Inv _ h0 hstep
  refine ⟨L, e, h1, fun τ hτ => h2 τ hτ ?_⟩
  exact pos_lt (inShape_map fun d _ => hw τ hτ d)

theorem eachAlone_ok {g : Group} (hg : GroupOK g) {k : ℕ} (hk : g.sharedDims = some k) (each : Bool) :
    ∃ g' k', eachAlone each g = .ok g' ∧ GroupOK g' ∧ g'.dims = g.dims ∧ g'.lengths = g.lengths ∧ g'.arrays = g.arrays ∧
      g'.sharedDims = some k' ∧ (each = true → k' = 0) ∧ (each = false → k' = k) := by
  cases each with
  | false => exact ⟨g, k, rfl, hg, rfl, rfl, rfl, hk, by simp, by simp⟩
  | true =>
    obtain ⟨g', e, h1, h2, h3, h4, h5⟩ := minimize_ok hg (n := 0) (by simp)
    have hg' := hg.minimized h1 h2 h3 h4 h5
    obtain ⟨k', hk', hle, -⟩ := h4
    exact ⟨g', k', e, hg', h1, h2, h3, hk', fun _ => by omega, by simp⟩

theorem fill_ok {V : Type} {len : String → ℕ} {org : List String} {r : String → ℕ × ℕ} {sb : Builder}
    (hs : Asks org r sb) (ho : org.Nodup) (hlen : ∀ d ∈ org, len d = (r d).2) (hpos : ∀ d, 0 < len d)
    (before after : List (In V)) (hin : ∀ a ∈ before ++ after, a.names.Nodup ∧ Values len a.names a.val a.data ∧
      (∀ d ∈ a.names, d ∉ org → len d = 1)) (each : Bool) (roles : List Bool)
    (hroles : roles.length = (before ++ after).length) (f : List V → V) (call : ℕ → List (List V) → Res (List V))
    (hcall : ∀ n, 0 < n → (each = true → n = 1) → CallOK roles f call n) (junk : ℕ → V) :
    ∃ (L : List V) (P : List String),
      fill (before.map fun a => (full len a.names, a.data)) (after.map fun a => (full len a.names, a.data)) each call junk
        sb = .ok L ∧
      (each = true → P = []) ∧ (each = false → Beginning P (before.map In.names ++ org :: after.map In.names)) ∧
      Values len org (fun τ => f (List.zipWith (fun a (role : Bool) =>
        a.val (if role then within org τ else zeroed P (within org τ))) (before ++ after) roles)) L := by
  have hsd : sliceDims sb = .ok (full len org) := by
    rw [sliceDims_ok ho hs fun d hd => hlen d hd ▸ hpos d]
    rw [full_congr fun d hd => (hlen d hd).symm]
  obtain ⟨g, k, e, hg, hz, hm, hk, hb⟩ := group_ok (len := len) (shapes := before.map In.names ++ org :: after.map In.names)
    (by simp) (by
      intro s hs
      rw [List.mem_append, List.mem_cons] at hs
      rcases hs with h | rfl | h
      · obtain ⟨a, ha, rfl⟩ := List.mem_map.1 h
        exact (hin a (List.mem_append_left _ ha)).1
      · exact ho
      · obtain ⟨a, ha, rfl⟩ := List.mem_map.1 h
        exact (hin a (List.mem_append_right _ ha)).1)
  obtain ⟨g', k', e', hg', d1, d2, d3, hk', k1, k2⟩ := eachAlone_ok hg hk each
  have hz' : Sized len g' := ⟨by rw [d1, d2]; exact hz.lengths, by rw [d1, d3]; exact hz.dims⟩
  obtain ⟨L, eL, hL⟩ := loop_ok hpos before after hin hg' hz' hk' (by rw [d3]; exact hm) roles hroles f call
    (hcall _ (prod_positive _ (by intro x hx; obtain ⟨d, -, rfl⟩ := List.mem_map.1 hx; exact hpos d)) fun h => by
      rw [k1 h]; rfl) junk
  refine ⟨L, g'.dims.take k', ?_, fun h => by rw [k1 h]; rfl, fun h => by rw [k2 h, d1]; exact hb, hL⟩
  unfold fill
  rw [hsd, Res.ok_bind]
  have hgr : groupOf (List.map Prod.fst (before.map fun a => (full len a.names, a.data)) ++ full len org ::
      List.map Prod.fst (after.map fun a => (full len a.names, a.data))) = .ok g := by
    rw [← e]
    simp [List.map_map, Function.comp_def]
  rw [hgr, Res.ok_bind, e', Res.ok_bind, ← eL]
  simp [List.map_map, Function.comp_def]

/-- A call that is undefined for the arrays makes all undefined. -/
theorem fill_ub {V : Type} {len : String → ℕ} {org : List String} {r : String → ℕ × ℕ} {sb : Builder}
    (hs : Asks org r sb) (ho : org.Nodup) (hlen : ∀ d ∈ org, len d = (r d).2) (hpos : ∀ d, 0 < len d)
    (before after : List (List String × List V)) (hin : ∀ a ∈ before ++ after, a.1.Nodup)
    (call : ℕ → List (List V) → Res (List V))
    (hcall : ∀ n, 0 < n → call n ((before ++ after).map Prod.snd) = .ub) (junk : ℕ → V) :
    fill (before.map fun a => (full len a.1, a.2)) (after.map fun a => (full len a.1, a.2)) false call junk sb = .ub := by
  have hsd : sliceDims sb = .ok (full len org) := by
    rw [sliceDims_ok ho hs fun d hd => hlen d hd ▸ hpos d]
    rw [full_congr fun d hd => (hlen d hd).symm]
  obtain ⟨g, k, e, hg, hz, hm, hk, hb⟩ := group_ok (len := len) (shapes := before.map Prod.fst ++ org :: after.map Prod.fst)
    (by simp) (by
      intro s hs
      rw [List.mem_append, List.mem_cons] at hs
      rcases hs with h | rfl | h
      · obtain ⟨a, ha, rfl⟩ := List.mem_map.1 h
        exact hin a (List.mem_append_left _ ha)
      · exact ho
      · obtain ⟨a, ha, rfl⟩ := List.mem_map.1 h
        exact hin a (List.mem_append_right _ ha))
  unfold fill
  rw [hsd, Res.ok_bind]
  have hgr : groupOf (List.map Prod.fst (before.map fun a => (full len a.1, a.2)) ++ full len org ::
      List.map Prod.fst (after.map fun a => (full len a.1, a.2))) = .ok g := by
    rw [← e]
    simp [List.map_map, Function.comp_def]
  rw [hgr, Res.ok_bind, eachAlone, if_neg (by simp), Res.ok_bind]
  cases (loopLengths g).prod with
  | zero => rfl
  | succ n =>
    have hidx : (start g).idx = List.replicate (before.length + 1 + after.length) 0 := by
      unfold start
      rw [List.map_const']
      congr 1
      rw [← List.length_map (f := Prod.fst), hm]
      simp
      omega
    have hv : 0 < g.sharedVolume := by
      obtain ⟨-, h⟩ := hg.vol k hk
      rw [h, hz.lengths, ← List.map_take]
      exact prod_positive _ (by intro x hx; obtain ⟨d, -, rfl⟩ := List.mem_map.1 hx; exact hpos d)
    have hmap : ((((before.map fun a => (full len a.1, a.2)) ++ after.map fun a => (full len a.1, a.2)).map Prod.snd).zip
        ((start g).idx.eraseIdx (before.map fun a => (full len a.1, a.2)).length)).mapM (fun p => pointer p.1 p.2) =
        .ok ((before ++ after).map Prod.snd) := by
      rw [hidx, List.length_map, List.eraseIdx_replicate, if_pos (by omega), ← List.map_append, List.map_map,
        show before.length + 1 + after.length - 1 = (before ++ after).length by simp]
      generalize before ++ after = l
      induction l with
      | nil => rfl
      | cons a l ih =>
        rw [List.map_cons, List.length_cons, List.replicate_succ, List.zip_cons_cons, List.mapM_cons, List.map_cons]
        have : pointer a.2 0 = .ok a.2 := by simp [pointer]
        simp only [Function.comp_apply, this, Res.ok_bind]
        rw [show (Prod.snd ∘ fun a : List String × List V => (full len a.1, a.2)) = fun a => a.2 from rfl] at ih ⊢
        rw [ih]
        rfl
    unfold doLoop blockStep
    rw [hmap, Res.ok_bind, hcall _ hv]
    rfl

end Fimex.Converters
