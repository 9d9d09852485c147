import Verif.ArrayLoop.Model
import Verif.Slice.Lemmas

/-! # Helper lemmas for array groups and loops -/

namespace Fimex.ArrayLoop

theorem findIdx?_get {l : List String} {n : String} {j : Nat} (h : l.findIdx? (· == n) = some j) :
    l[j]? = some n := by
  rw [List.findIdx?_eq_some_iff_getElem] at h
  obtain ⟨hj, he, -⟩ := h
  simp at he
  rw [List.getElem?_eq_getElem hj, he]

theorem findIdx?_none {l : List String} {n : String} (h : l.findIdx? (· == n) = none) : n ∉ l := by
  intro hm
  rw [List.findIdx?_eq_none_iff] at h
  simpa using h n hm

theorem nodup_get_inj {l : List String} (hn : l.Nodup) {i j : Nat} {n : String}
    (hi : l[i]? = some n) (hj : l[j]? = some n) : i = j := by
  exact (List.getElem?_inj (List.getElem?_eq_some_iff.1 hi).1 hn).1 (hi.trans hj.symm)

theorem findIdx?_of_get {l : List String} (hn : l.Nodup) {n : String} {j : Nat}
    (h : l[j]? = some n) : l.findIdx? (· == n) = some j := by
  cases hf : l.findIdx? (· == n) with
  | none => exact absurd (List.mem_of_getElem? h) (findIdx?_none hf)
  | some i => rw [nodup_get_inj hn (findIdx?_get hf) h]

/-- Well-formed array dimensions: the member vectors have the same length, names are distinct. -/
structure WF (a : Dims) : Prop where
  name : a.name.length = a.rank
  delta : a.delta.length = a.rank
  shared : a.shared.length = a.rank
  nodup : a.name.Nodup

/-- Index of the dimension `n` of `a`, if it is a shared dimension with index below `s`. -/
def sharedBelow (a : Dims) (s : Nat) (n : String) : Option Nat :=
  match a.dimIndex n with
  | some j => if j < s ∧ a.isShared j = true then some j else none
  | none => none

/-- `m` maps each group dimension to the array's shared dimension of the same name among the first
`s`; each of these is in the group with its length. -/
structure MapOK (g : Group) (a : Dims) (m : List (Option Nat)) (s : Nat) : Prop where
  len : m.length = g.dims.length
  map : ∀ (gd : Nat) n, g.dims[gd]? = some n → m[gd]? = some (sharedBelow a s n)
  cov : ∀ j, j < s → a.isShared j = true →
    ∃ gd : Nat, g.dims[gd]? = a.name[j]? ∧ g.lengths[gd]? = a.length[j]?

/-- First `k` group dimensions are the array's first `k` dimensions (of those below `s`). -/
def PrefixOK (m : List (Option Nat)) (k s : Nat) : Prop := ∀ i, i < k → i < s → m[i]? = some (some i)

structure GroupOK (g : Group) : Prop where
  nodup : g.dims.Nodup
  len : g.dims.length = g.lengths.length
  arr : ∀ am ∈ g.arrays, WF am.1 ∧ MapOK g am.1 am.2 am.1.rank
  vol : ∀ k, g.sharedDims = some k → k ≤ g.lengths.length ∧ g.sharedVolume = (g.lengths.take k).prod
  pre : ∀ k, g.sharedDims = some k → ∀ am ∈ g.arrays, PrefixOK am.2 k am.1.rank ∧ k ≤ am.1.rank
  non : g.sharedDims = none → g.arrays = []

/-- Invariant while the array `a` is being added, `s` of its dimensions done. -/
structure AddInv (a : Dims) (s : Nat) (g : Group) (m : List (Option Nat)) : Prop where
  ok : GroupOK g
  map : MapOK g a m s
  pre : ∀ k, g.sharedDims = some k → PrefixOK m k s
  first : g.sharedDims = none → g.dims.length = s ∧ ∀ i, i < s → m[i]? = some (some i)
  firstk : ∀ k, g.arrays = [] → g.sharedDims = some k → k ≤ s

theorem minimize_ok {g : Group} (hg : GroupOK g) {n : Nat} (hn : g.sharedDims = none → n ≤ g.lengths.length) :
    ∃ g', g.minimizeShared n = .ok g' ∧ g'.dims = g.dims ∧ g'.lengths = g.lengths ∧
      g'.arrays = g.arrays ∧ (∃ k, g'.sharedDims = some k ∧ k ≤ n ∧
        (∀ k0, g.sharedDims = some k0 → k = min k0 n) ∧ (g.sharedDims = none → k = n)) ∧
      (∀ k, g'.sharedDims = some k →
        k ≤ g.lengths.length ∧ g'.sharedVolume = (g.lengths.take k).prod) := by
  cases hk : g.sharedDims with
  | none =>
    refine ⟨{ g with sharedDims := some n, sharedVolume := (g.lengths.take n).prod }, ?_, rfl, rfl,
      rfl, ⟨n, rfl, by omega, by simp, by simp⟩, ?_⟩
    · simp [Group.minimizeShared, hk, hn hk]
    · intro k h; simp at h; subst h; exact ⟨hn hk, rfl⟩
  | some k0 =>
    obtain ⟨h1, h2⟩ := hg.vol k0 hk
    by_cases hlt : n < k0
    · refine ⟨{ g with sharedDims := some n, sharedVolume := (g.lengths.take n).prod }, ?_, rfl, rfl,
        rfl, ⟨n, rfl, by omega, fun k h => by simp at h; omega, by simp⟩, ?_⟩
      · have : n ≤ g.lengths.length := by omega
        simp [Group.minimizeShared, hk, hlt, this]
      · intro k h; simp at h; subst h; exact ⟨by omega, rfl⟩
    · refine ⟨g, ?_, rfl, rfl, rfl, ⟨k0, hk, by omega, fun k h => by simp at h; omega, by simp⟩, ?_⟩
      · simp [Group.minimizeShared, hk, hlt]
      · intro k h; rw [hk] at h; cases h; exact ⟨h1, h2⟩

theorem MapOK.congr {g g' : Group} {a : Dims} {m s} (h : MapOK g a m s) (h1 : g'.dims = g.dims)
    (h2 : g'.lengths = g.lengths) : MapOK g' a m s :=
  ⟨by rw [h1]; exact h.len, by rw [h1]; exact h.map, by rw [h1, h2]; exact h.cov⟩

theorem GroupOK.minimized {g g' : Group} {n : Nat} (hg : GroupOK g)
    (h1 : g'.dims = g.dims) (h2 : g'.lengths = g.lengths) (h3 : g'.arrays = g.arrays)
    (h4 : ∃ k, g'.sharedDims = some k ∧ k ≤ n ∧
        (∀ k0, g.sharedDims = some k0 → k = min k0 n) ∧ (g.sharedDims = none → k = n))
    (h5 : ∀ k, g'.sharedDims = some k →
        k ≤ g.lengths.length ∧ g'.sharedVolume = (g.lengths.take k).prod) : GroupOK g' := by
  obtain ⟨k, hk, hkn, hk0, -⟩ := h4
  refine ⟨by rw [h1]; exact hg.nodup, by rw [h1, h2]; exact hg.len, ?_, by rw [h2]; exact h5, ?_, ?_⟩
  · rw [h3]; intro am ham; exact ⟨(hg.arr am ham).1, (hg.arr am ham).2.congr h1 h2⟩
  · rw [h3]
    intro k' hk' am ham
    rw [hk] at hk'; cases hk'
    cases hs : g.sharedDims with
    | none => rw [hg.non hs] at ham; simp at ham
    | some k0 =>
      have hm := hk0 k0 hs
      obtain ⟨p1, p2⟩ := hg.pre k0 hs am ham
      exact ⟨fun i hi hi' => p1 i (by omega) hi', by omega⟩
  · intro h; rw [hk] at h; cases h

theorem sharedBelow_succ_of_not {a : Dims} {s : Nat} (hw : WF a) (hs : a.isShared s = false) (n : String) :
    sharedBelow a (s + 1) n = sharedBelow a s n := by
  unfold sharedBelow
  cases h : a.dimIndex n with
  | none => rfl
  | some j =>
    by_cases hj : j = s
    · subst hj; simp [hs]
    · have : (j < s + 1) ↔ (j < s) := by omega
      simp [this]

theorem sharedBelow_self {a : Dims} {s : Nat} {n : String} (hw : WF a) (hs : a.isShared s = true)
    (hn : a.name[s]? = some n) : sharedBelow a (s + 1) n = some s := by
  simp [sharedBelow, Dims.dimIndex, findIdx?_of_get hw.nodup hn, hs]

theorem sharedBelow_other {a : Dims} {s : Nat} {n n' : String} (hn : a.name[s]? = some n)
    (hne : n' ≠ n) : sharedBelow a (s + 1) n' = sharedBelow a s n' := by
  unfold sharedBelow
  cases h : a.dimIndex n' with
  | none => rfl
  | some j =>
    have hj : j ≠ s := by
      rintro rfl
      have := findIdx?_get h
      rw [hn] at this
      exact hne (Option.some.inj this).symm
    have : (j < s + 1) ↔ (j < s) := by omega
    simp [this]

theorem sharedBelow_some {a : Dims} {s j : Nat} {n : String} (h : sharedBelow a s n = some j) :
    j < s ∧ a.isShared j = true ∧ a.name[j]? = some n := by
  unfold sharedBelow at h
  split at h
  · rename_i j' hj
    split at h
    · rename_i hc
      simp at h; subst h
      exact ⟨hc.1, hc.2, findIdx?_get hj⟩
    · cases h
  · cases h

/-- The step for one dimension keeps the invariant, or raises; it is never undefined. -/
theorem addStep_inv {a : Dims} (hw : WF a) {s : Nat} (hs : s < a.rank) {g : Group}
    {m : List (Option Nat)} (hi : AddInv a s g m) :
    addStep a g m s = .throws ∨ ∃ g' m', addStep a g m s = .ok (g', m') ∧ AddInv a (s + 1) g' m' ∧
      g'.arrays.map Prod.fst = g.arrays.map Prod.fst := by
  have hlt : s < a.name.length := by rw [hw.name]; exact hs
  have hltl : s < a.length.length := hs
  have hname : a.name[s]? = some (a.name.getD s "") := by simp [hlt]
  have hlen : a.length[s]? = some (a.length.getD s 0) := by simp [hltl]
  unfold addStep
  by_cases hsh : a.isShared s = false
  · right
    rw [if_pos hsh]
    obtain ⟨g', e, h1, h2, h3, h4, h5⟩ := minimize_ok hi.ok (n := s)
      (fun h => by have := (hi.first h).1; have := hi.ok.len; omega)
    have hok := hi.ok.minimized h1 h2 h3 h4 h5
    obtain ⟨k, hk, hkn, hk0, hkn'⟩ := h4
    refine ⟨g', m, by simp [e], ⟨hok, ?_, ?_, ?_, ?_⟩, by rw [h3]⟩
    · refine ⟨by rw [h1]; exact hi.map.len, ?_, ?_⟩
      · intro gd n hn
        rw [sharedBelow_succ_of_not hw hsh]
        exact hi.map.map gd n (by rw [← h1]; exact hn)
      · intro j hj hjs
        have : j ≠ s := by rintro rfl; rw [hsh] at hjs; cases hjs
        rw [h1, h2]; exact hi.map.cov j (by omega) hjs
    · intro k' hk' i h1 h2
      rw [hk] at hk'; cases hk'
      have his : i < s := by omega
      cases hs' : g.sharedDims with
      | none => exact (hi.first hs').2 i his
      | some k0 => exact hi.pre k0 hs' i (by have := hk0 k0 hs'; omega) his
    · intro h; rw [hk] at h; cases h
    · intro k' ha hk'; rw [hk] at hk'; cases hk'; omega
  · have hsh' : a.isShared s = true := by simpa using hsh
    rw [if_neg hsh]
    dsimp only
    cases hp : g.position (a.name.getD s "") with
    | some d =>
      have hd := findIdx?_get hp
      dsimp only
      by_cases hl : a.length.getD s 0 ≠ g.lengths.getD d 0
      · left; rw [if_pos hl]
      · right
        rw [if_neg hl]
        simp only [ne_eq, Decidable.not_not] at hl
        have hdlt : d < g.lengths.length := by
          rw [← hi.ok.len]; exact (List.getElem?_eq_some_iff.1 hd).1
        have hdm : d < m.length := by rw [hi.map.len, hi.ok.len]; exact hdlt
        have hlend : g.lengths[d]? = a.length[s]? := by
          rw [hlen, hl]; simp [hdlt]
        have hmap : MapOK g a (m.set d (some s)) (s + 1) := by
          refine ⟨by simpa using hi.map.len, ?_, ?_⟩
          · intro gd n hn
            by_cases hgd : d = gd
            · subst hgd
              rw [List.getElem?_set_self hdm]
              rw [hd] at hn; cases hn
              rw [sharedBelow_self hw hsh' hname]
            · rw [List.getElem?_set_ne hgd, hi.map.map gd n hn]
              have hne : n ≠ a.name.getD s "" := by
                rintro rfl
                exact hgd (nodup_get_inj hi.ok.nodup hd hn)
              rw [sharedBelow_other hname hne]
          · intro j hj hjs
            by_cases hjs' : j = s
            · subst hjs'; exact ⟨d, by rw [hd, hname], hlend⟩
            · exact hi.map.cov j (by omega) hjs
        by_cases hds : d ≠ s
        · rw [if_pos hds]
          obtain ⟨g', e, h1, h2, h3, h4, h5⟩ := minimize_ok hi.ok (n := min s d) (fun _ => by omega)
          have hok := hi.ok.minimized h1 h2 h3 h4 h5
          obtain ⟨k, hk, hkn, hk0, hkn'⟩ := h4
          refine ⟨g', m.set d (some s), by rw [e]; rfl, ⟨hok, hmap.congr h1 h2, ?_, ?_, ?_⟩, by rw [h3]⟩
          · intro k' hk' i h1 h2
            rw [hk] at hk'; cases hk'
            rw [List.getElem?_set_ne (by omega)]
            cases hs' : g.sharedDims with
            | none => exact (hi.first hs').2 i (by omega)
            | some k0 => exact hi.pre k0 hs' i (by have := hk0 k0 hs'; omega) (by omega)
          · intro h; rw [hk] at h; cases h
          · intro k' ha hk'; rw [hk] at hk'; cases hk'; omega
        · rw [if_neg hds]
          simp only [ne_eq, Decidable.not_not] at hds
          subst hds
          refine ⟨g, m.set d (some d), rfl, ⟨hi.ok, hmap, ?_, ?_, ?_⟩, rfl⟩
          · intro k hk i h1 h2
            by_cases hid : i = d
            · subst hid; rw [List.getElem?_set_self hdm]
            · rw [List.getElem?_set_ne (by omega)]; exact hi.pre k hk i h1 (by omega)
          · intro h
            have := (hi.first h).1
            have := hi.ok.len
            omega
          · intro k ha hk; have := hi.firstk k ha hk; omega
    | none =>
      right
      have hnm := findIdx?_none hp
      dsimp only
      -- the group with the new dimension, other arrays extended
      let g1 : Group := { g with dims := g.dims ++ [a.name.getD s ""], lengths := g.lengths ++ [a.length.getD s 0] }
      let ext : Dims × List (Option Nat) → Dims × List (Option Nat) := fun o => (o.1, o.2 ++ [none])
      have hmapO : ∀ (G : Group), G.dims = g1.dims → G.lengths = g1.lengths →
          ∀ am ∈ g.arrays, WF am.1 ∧ MapOK G am.1 (am.2 ++ [none]) am.1.rank := by
        intro G hG1 hG2 am ham
        obtain ⟨w, mk⟩ := hi.ok.arr am ham
        refine ⟨w, ⟨by rw [hG1]; simp [g1, mk.len], ?_, ?_⟩⟩
        · intro gd n hn
          rw [hG1] at hn
          by_cases hgd : gd < g.dims.length
          · rw [List.getElem?_append_left (by rw [mk.len]; exact hgd)]
            simp only [g1] at hn
            rw [List.getElem?_append_left hgd] at hn
            exact mk.map gd n hn
          · have hlt' := (List.getElem?_eq_some_iff.1 hn).1
            simp [g1] at hlt'
            have : gd = g.dims.length := by omega
            subst this
            simp [g1] at hn
            rw [List.getElem?_append_right (by rw [mk.len]; exact Nat.le_refl _), mk.len]
            simp only [Nat.sub_self, List.getElem?_cons_zero, Option.some.injEq]
            symm
            cases hb : sharedBelow am.1 am.1.rank n with
            | none => rfl
            | some j =>
              obtain ⟨hj1, hj2, hj3⟩ := sharedBelow_some hb
              obtain ⟨gd', e1, -⟩ := mk.cov j hj1 hj2
              rw [hj3] at e1
              rw [← hn] at e1
              exact absurd (List.mem_of_getElem? e1) (by simpa using hnm)
        · intro j hj hjs
          obtain ⟨gd, e1, e2⟩ := mk.cov j hj hjs
          have hj' : j < am.1.name.length := by rw [w.name]; exact hj
          have hgd : gd < g.dims.length := by
            rw [List.getElem?_eq_getElem hj'] at e1
            exact (List.getElem?_eq_some_iff.1 e1).1
          refine ⟨gd, ?_, ?_⟩
          · rw [hG1]; simp only [g1]; rw [List.getElem?_append_left hgd]; exact e1
          · rw [hG2]; simp only [g1]
            rw [List.getElem?_append_left (by rw [← hi.ok.len]; exact hgd)]; exact e2
      have hmapA : ∀ (G : Group), G.dims = g1.dims → G.lengths = g1.lengths →
          MapOK G a (m ++ [some s]) (s + 1) := by
        intro G hG1 hG2
        refine ⟨by rw [hG1]; simp [g1, hi.map.len], ?_, ?_⟩
        · intro gd n hn
          rw [hG1] at hn
          by_cases hgd : gd < g.dims.length
          · simp only [g1] at hn
            rw [List.getElem?_append_left hgd] at hn
            rw [List.getElem?_append_left (by rw [hi.map.len]; exact hgd), hi.map.map gd n hn]
            have hne : n ≠ a.name.getD s "" := by
              rintro rfl; exact hnm (List.mem_of_getElem? hn)
            rw [sharedBelow_other hname hne]
          · have hlt' := (List.getElem?_eq_some_iff.1 hn).1
            simp [g1] at hlt'
            have : gd = g.dims.length := by omega
            subst this
            simp only [g1] at hn
            rw [List.getElem?_append_right (Nat.le_refl _)] at hn
            simp only [Nat.sub_self, List.getElem?_cons_zero, Option.some.injEq] at hn
            rw [List.getElem?_append_right (by rw [hi.map.len]; exact Nat.le_refl _), hi.map.len,
              ← hn, sharedBelow_self hw hsh' hname]
            simp
        · intro j hj hjs
          by_cases hjs' : j = s
          · subst hjs'
            refine ⟨g.dims.length, ?_, ?_⟩
            · rw [hG1, hname]; simp [g1]
            · rw [hG2, hlen, hi.ok.len]; simp [g1]
          · obtain ⟨gd, e1, e2⟩ := hi.map.cov j (by omega) hjs
            have hj' : j < a.name.length := by omega
            have hgd : gd < g.dims.length := by
              rw [List.getElem?_eq_getElem hj'] at e1
              exact (List.getElem?_eq_some_iff.1 e1).1
            refine ⟨gd, ?_, ?_⟩
            · rw [hG1]; simp only [g1]; rw [List.getElem?_append_left hgd]; exact e1
            · rw [hG2]; simp only [g1]
              rw [List.getElem?_append_left (by rw [← hi.ok.len]; exact hgd)]; exact e2
      have hnod : g1.dims.Nodup := by
        simp only [g1]
        rw [List.nodup_append]
        refine ⟨hi.ok.nodup, by simp, ?_⟩
        intro x hx y hy
        simp at hy
        rintro rfl
        exact hnm (by simpa [hy] using hx)
      have hlen1 : g1.dims.length = g1.lengths.length := by simp [g1, hi.ok.len]
      have hvol1 : ∀ k, g.sharedDims = some k → k ≤ g1.lengths.length ∧
          g.sharedVolume = (g1.lengths.take k).prod := by
        intro k hk
        obtain ⟨v1, v2⟩ := hi.ok.vol k hk
        refine ⟨by simp [g1]; omega, ?_⟩
        simp only [g1]; rw [List.take_append_of_le_length v1]; exact v2
      by_cases hA : g.arrays ≠ []
      · rw [if_pos hA]
        -- minimise on g1
        have hkS : ∃ k0, g.sharedDims = some k0 := by
          cases h : g.sharedDims with
          | none => exact absurd (hi.ok.non h) hA
          | some k => exact ⟨k, rfl⟩
        obtain ⟨k0, hk0⟩ := hkS
        obtain ⟨v1, v2⟩ := hvol1 k0 hk0
        obtain ⟨g2, e, h1, h2, h3, k, hk, hks, hkk, hv⟩ : ∃ g2, g1.minimizeShared s = .ok g2 ∧
            g2.dims = g1.dims ∧ g2.lengths = g1.lengths ∧ g2.arrays = g.arrays ∧
            ∃ k, g2.sharedDims = some k ∧ k ≤ s ∧ k ≤ k0 ∧
              (k ≤ g1.lengths.length ∧ g2.sharedVolume = (g1.lengths.take k).prod) := by
          by_cases hlt : s < k0
          · refine ⟨{ g1 with sharedDims := some s, sharedVolume := (g1.lengths.take s).prod }, ?_,
              rfl, rfl, rfl, s, rfl, Nat.le_refl _, by omega, by omega, rfl⟩
            have : s ≤ g1.lengths.length := by omega
            have hk0' : g1.sharedDims = some k0 := hk0
            simp [Group.minimizeShared, hk0', hlt, this]
          · refine ⟨g1, ?_, rfl, rfl, rfl, k0, hk0, by omega, Nat.le_refl _, v1, v2⟩
            have hk0' : g1.sharedDims = some k0 := hk0
            simp [Group.minimizeShared, hk0', hlt]
        refine ⟨{ g2 with arrays := g2.arrays.map fun o => (o.1, o.2 ++ [none]) }, m ++ [some s], ?_, ⟨⟨?_, ?_, ?_, ?_, ?_, ?_⟩, ?_, ?_, ?_, ?_⟩, ?_⟩
        · show (g1.minimizeShared s >>= _) = _
          rw [e]; rfl
        · show g2.dims.Nodup; rw [h1]; exact hnod
        · show g2.dims.length = g2.lengths.length; rw [h1, h2]; exact hlen1
        · intro am ham
          simp only [List.mem_map] at ham
          obtain ⟨o, ho, rfl⟩ := ham
          rw [h3] at ho
          obtain ⟨w, mk⟩ := hmapO g2 h1 h2 o ho
          exact ⟨w, mk.congr rfl rfl⟩
        · intro k' hk'
          have : k' = k := by
            have : g2.sharedDims = some k' := hk'
            rw [hk] at this; exact (Option.some.inj this).symm
          subst this
          show k' ≤ g2.lengths.length ∧ g2.sharedVolume = _
          rw [h2]; exact hv
        · intro k' hk' am ham
          have : k' = k := by
            have : g2.sharedDims = some k' := hk'
            rw [hk] at this; exact (Option.some.inj this).symm
          subst this
          simp only [List.mem_map] at ham
          obtain ⟨o, ho, rfl⟩ := ham
          rw [h3] at ho
          obtain ⟨p1, p2⟩ := hi.ok.pre k0 hk0 o ho
          refine ⟨fun i hi1 hi2 => ?_, by show _ ≤ o.1.rank; omega⟩
          have hp' := p1 i (by omega) hi2
          have : i < o.2.length := (List.getElem?_eq_some_iff.1 hp').1
          show (o.2 ++ [none])[i]? = _
          rw [List.getElem?_append_left this]; exact hp'
        · intro h
          have : g2.sharedDims = none := h
          rw [hk] at this; cases this
        · exact hmapA _ h1 h2
        · intro k' hk' i hi1 hi2
          have : k' = k := by
            have : g2.sharedDims = some k' := hk'
            rw [hk] at this; exact (Option.some.inj this).symm
          subst this
          have hp' := hi.pre k0 hk0 i (by omega) (by omega)
          have : i < m.length := (List.getElem?_eq_some_iff.1 hp').1
          rw [List.getElem?_append_left this]; exact hp'
        · intro h
          have : g2.sharedDims = none := h
          rw [hk] at this; cases this
        · intro k' ha _
          exfalso
          simp only [List.map_eq_nil_iff] at ha
          rw [h3] at ha; exact hA ha
        · simp only [List.map_map]; rw [h3]; rfl
      · rw [if_neg hA]
        have hA' : g.arrays = [] := by simpa using hA
        refine ⟨g1, m ++ [some s], rfl, ⟨⟨hnod, hlen1, ?_, hvol1, ?_, ?_⟩, hmapA _ rfl rfl, ?_, ?_, ?_⟩, rfl⟩
        · intro am ham
          have : am ∈ g.arrays := ham
          rw [hA'] at this; simp at this
        · intro k hk am ham
          have : am ∈ g.arrays := ham
          rw [hA'] at this; simp at this
        · intro _; exact hA'
        · intro k hk i h1 h2
          have hks := hi.firstk k hA' hk
          have hp' := hi.pre k hk i h1 (by omega)
          have : i < m.length := (List.getElem?_eq_some_iff.1 hp').1
          rw [List.getElem?_append_left this]; exact hp'
        · intro h
          obtain ⟨f1, f2⟩ := hi.first h
          refine ⟨by simp [g1, f1], ?_⟩
          intro i hi'
          have hml : m.length = s := by rw [hi.map.len]; exact f1
          by_cases his : i < s
          · rw [List.getElem?_append_left (by omega)]; exact f2 i his
          · have : i = s := by omega
            subst this
            rw [List.getElem?_append_right (by omega), hml]; simp
        · intro k _ hk; have := hi.firstk k hA' hk; omega

theorem addLoop_inv {a : Dims} (hw : WF a) : ∀ (n s : Nat) (g : Group) (m : List (Option Nat)),
    s + n = a.rank → AddInv a s g m →
    addLoop a n s g m = .throws ∨ ∃ g' m', addLoop a n s g m = .ok (g', m') ∧ AddInv a a.rank g' m' ∧
      g'.arrays.map Prod.fst = g.arrays.map Prod.fst
  | 0, s, g, m, hs, hi => Or.inr ⟨g, m, rfl, by rw [← hs]; exact hi, rfl⟩
  | n + 1, s, g, m, hs, hi => by
    rcases addStep_inv hw (by omega) hi with e | ⟨g', m', e, hi', ha⟩
    · left; simp [addLoop, e]
    · rcases addLoop_inv hw n (s + 1) g' m' (by omega) hi' with e' | ⟨g'', m'', e', hi'', ha'⟩
      · left; simp [addLoop, e, e']
      · right; exact ⟨g'', m'', by simp [addLoop, e, e'], hi'', ha'.trans ha⟩

theorem add_ok {g : Group} (hg : GroupOK g) {a : Dims} (hw : WF a)
    (hne : g.arrays = [] → g.sharedDims = none) (hne' : g.sharedDims = none → g.dims = []) :
    g.add a = .throws ∨ ∃ g', g.add a = .ok g' ∧ GroupOK g' ∧
      g'.arrays.map Prod.fst = g.arrays.map Prod.fst ++ [a] ∧ g'.sharedDims ≠ none := by
  have hi : AddInv a 0 g (List.replicate g.lengths.length none) := by
    refine ⟨hg, ⟨by simp [hg.len], ?_, by simp⟩, ?_, ?_, ?_⟩
    · intro gd n hn
      have hgd := (List.getElem?_eq_some_iff.1 hn).1
      rw [List.getElem?_replicate, if_pos (by rw [← hg.len]; exact hgd)]
      have : sharedBelow a 0 n = none := by
        unfold sharedBelow; split <;> simp
      rw [this]
    · intro k _ i _ h; omega
    · intro h; exact ⟨by rw [hne' h]; rfl, by intro i hi; omega⟩
    · intro k ha hk
      rw [hne ha] at hk; cases hk
  rcases addLoop_inv hw a.rank 0 g _ (by omega) hi with e | ⟨g1, m1, e, hi1, ha⟩
  · left; simp [Group.add, e]
  · right
    obtain ⟨g2, e2, h1, h2, h3, h4, h5⟩ := minimize_ok hi1.ok (n := a.rank) (fun h => by
      have := (hi1.first h).1; have := hi1.ok.len; omega)
    have hok := hi1.ok.minimized h1 h2 h3 h4 h5
    obtain ⟨k, hk, hkn, hk0, hkN⟩ := h4
    refine ⟨{ g2 with arrays := g2.arrays ++ [(a, m1)] }, by simp [Group.add, e, e2],
      ⟨hok.nodup, hok.len, ?_, hok.vol, ?_, ?_⟩, ?_, ?_⟩
    · intro am ham
      simp only [List.mem_append, List.mem_singleton] at ham
      rcases ham with ham | rfl
      · exact ⟨(hok.arr am ham).1, (hok.arr am ham).2.congr rfl rfl⟩
      · exact ⟨hw, hi1.map.congr h1 h2⟩
    · intro k' hk' am ham
      simp only [List.mem_append, List.mem_singleton] at ham
      rcases ham with ham | rfl
      · exact hok.pre k' hk' am ham
      · have : k' = k := by
          have : g2.sharedDims = some k' := hk'
          rw [hk] at this; exact (Option.some.inj this).symm
        subst this
        refine ⟨fun i hi1' hi2' => ?_, hkn⟩
        cases hs : g1.sharedDims with
        | none => exact (hi1.first hs).2 i hi2'
        | some k0 => exact hi1.pre k0 hs i (by have := hk0 k0 hs; omega) hi2'
    · intro h
      have : g2.sharedDims = none := h
      rw [hk] at this; cases this
    · simp [h3, ha]
    · show g2.sharedDims ≠ none
      rw [hk]; simp

theorem emptyGroup_ok : GroupOK emptyGroup :=
  ⟨by simp [emptyGroup], rfl, by simp [emptyGroup], by simp [emptyGroup], by simp [emptyGroup],
    fun _ => rfl⟩

theorem foldlM_add_ok (as : List Dims) : ∀ (g : Group), GroupOK g →
    (g.arrays = [] → g.sharedDims = none) → (g.sharedDims = none → g.dims = []) →
    (∀ a ∈ as, WF a) →
    as.foldlM Group.add g = .throws ∨ ∃ g', as.foldlM Group.add g = .ok g' ∧ GroupOK g' ∧
      g'.arrays.map Prod.fst = g.arrays.map Prod.fst ++ as := by
  induction as with
  | nil => intro g hg _ _ _; exact Or.inr ⟨g, rfl, hg, by simp⟩
  | cons a as ih =>
    intro g hg h1 h2 hw
    rcases add_ok hg (hw a (by simp)) h1 h2 with e | ⟨g', e, hok, hm, hs⟩
    · left; simp [List.foldlM_cons, e]
    · have hne : g'.arrays ≠ [] := by
        intro h; rw [h] at hm; simp at hm
      rcases ih g' hok (fun h => absurd h hne) (fun h => absurd h hs) (fun b hb => hw b (by simp [hb]))
        with e' | ⟨g'', e', hok', hm'⟩
      · left; simp [List.foldlM_cons, e, e']
      · right; exact ⟨g'', by simp [List.foldlM_cons, e, e'], hok', by rw [hm', hm]; simp⟩

/-! ## The loop -/

/-- Sum of position times stride; `i` is the dimension of the first position. -/
def dot (d : Nat → Nat) : Nat → List Nat → Int
  | _, [] => 0
  | i, p :: ps => (p : Int) * (d i : Int) + dot d (i + 1) ps

theorem dot_set (d : Nat → Nat) : ∀ (ps : List Nat) (i k v : Nat), k < ps.length →
    dot d i (ps.set k v) = dot d i ps + (d (i + k) : Int) * ((v : Int) - (ps.getD k 0 : Nat)) := by
  intro ps
  induction ps with
  | nil => intro i k v h; simp at h
  | cons p ps ih =>
    intro i k v h
    cases k with
    | zero =>
      simp only [List.set_cons_zero, dot, Nat.add_zero, List.getD_cons_zero, Int.mul_sub]
      rw [Int.mul_comm (d i : Int) v, Int.mul_comm (d i : Int) p]
      omega
    | succ k =>
      simp only [List.length_cons, Nat.add_lt_add_iff_right] at h
      simp only [List.set_cons_succ, dot, List.getD_cons_succ]
      rw [ih (i + 1) k v h]
      have : i + 1 + k = i + (k + 1) := by omega
      rw [this]; omega

/-- All offsets are the dot products of the positions with the arrays' strides. -/
def Synced (g : Group) (st : State) : Prop :=
  st.idx = g.arrays.map fun am => dot (deltaOf am) 0 st.pos

theorem synced_step {g : Group} {st : State} (h : Synced g st) (gd v : Nat) (hgd : gd < st.pos.length)
    (step : Int) (hstep : step = (v : Int) - (st.pos.getD gd 0 : Nat)) :
    Synced g { pos := st.pos.set gd v, idx := stepIdx g gd step st.idx } := by
  unfold Synced at *
  simp only [stepIdx, h]
  have : ∀ (l : List (Dims × List (Option Nat))),
      List.zipWith (fun am i => i + (deltaOf am gd : Int) * step) l
        (l.map fun am => dot (deltaOf am) 0 st.pos) =
      l.map fun am => dot (deltaOf am) 0 (st.pos.set gd v) := by
    intro l
    induction l with
    | nil => rfl
    | cons am l ih =>
      simp only [List.map_cons, List.zipWith_cons_cons, ih]
      congr 1
      rw [dot_set _ _ _ _ _ hgd, Nat.zero_add, hstep]
  exact this _

theorem nextGo_spec (g : Group) : ∀ (n gd : Nat) (st : State) (p : List Nat),
    gd + n = g.lengths.length → st.pos.length = g.lengths.length → Synced g st →
    st.pos.drop gd = p → InShape (g.lengths.drop gd) p →
    let r := nextGo g n gd st
    Synced g r.1 ∧ r.1.pos.length = g.lengths.length ∧ r.1.pos.take gd = st.pos.take gd ∧
    InShape (g.lengths.drop gd) (r.1.pos.drop gd) ∧
    (r.2 = false → pos (g.lengths.drop gd) (r.1.pos.drop gd) = pos (g.lengths.drop gd) p + 1) ∧
    (r.2 = true → pos (g.lengths.drop gd) p + 1 = (g.lengths.drop gd).prod ∧
      pos (g.lengths.drop gd) (r.1.pos.drop gd) = 0) := by
  intro n
  induction n with
  | zero =>
    intro gd st p h1 h2 hs hd hin
    have hg : g.lengths.drop gd = [] := List.drop_eq_nil_of_le (by omega)
    have hp : st.pos.drop gd = [] := List.drop_eq_nil_of_le (by omega)
    rw [hp] at hd
    subst hd
    simp [nextGo, hs, h2, hg, hp, InShape, pos]
  | succ n ih =>
    intro gd st p h1 h2 hs hd hin
    have hgd : gd < g.lengths.length := by omega
    have hgd' : gd < st.pos.length := by omega
    have hL : g.lengths.drop gd = g.lengths.getD gd 0 :: g.lengths.drop (gd + 1) := by
      rw [List.drop_eq_getElem_cons hgd]; simp [hgd]
    have hP : st.pos.drop gd = st.pos.getD gd 0 :: st.pos.drop (gd + 1) := by
      rw [List.drop_eq_getElem_cons hgd']; simp [hgd']
    rw [hP] at hd
    subst hd
    rw [hL] at hin ⊢
    generalize hlen : g.lengths.getD gd 0 = len at *
    generalize hx : st.pos.getD gd 0 = x at *
    obtain ⟨hxl, hin'⟩ := hin
    simp only [nextGo, hlen, hx]
    by_cases hc : x + 1 = len
    · rw [if_pos hc]
      have hsync : Synced g { pos := st.pos.set gd 0, idx := stepIdx g gd (-((len : Int) - 1)) st.idx } :=
        synced_step hs gd 0 hgd' _ (by rw [hx]; omega)
      have hdrop : (st.pos.set gd 0).drop (gd + 1) = st.pos.drop (gd + 1) := by
        rw [List.drop_set_of_lt (by omega)]
      obtain ⟨i1, i2, i3, i4, i5, i6⟩ := ih (gd + 1)
        { pos := st.pos.set gd 0, idx := stepIdx g gd (-((len : Int) - 1)) st.idx }
        (st.pos.drop (gd + 1)) (by omega) (by simpa using h2) hsync hdrop hin'
      generalize hr : nextGo g n (gd + 1)
        { pos := st.pos.set gd 0, idx := stepIdx g gd (-((len : Int) - 1)) st.idx } = r at *
      dsimp only at i1 i2 i3 i4 i5 i6 ⊢
      have hgr : gd < r.1.pos.length := by omega
      have h0 : r.1.pos[gd]? = some 0 := by
        have : (r.1.pos.take (gd + 1))[gd]? = ((st.pos.set gd 0).take (gd + 1))[gd]? := by rw [i3]
        rw [List.getElem?_take, if_pos (by omega), List.getElem?_take, if_pos (by omega),
          List.getElem?_set_self hgd'] at this
        exact this
      have hPr : r.1.pos.drop gd = 0 :: r.1.pos.drop (gd + 1) := by
        rw [List.drop_eq_getElem_cons hgr]
        congr 1
        rw [List.getElem?_eq_getElem hgr] at h0
        exact Option.some.inj h0
      refine ⟨i1, i2, ?_, ?_, ?_, ?_⟩
      · have : (r.1.pos.take (gd + 1)).take gd = ((st.pos.set gd 0).take (gd + 1)).take gd := by rw [i3]
        rw [List.take_take, List.take_take, Nat.min_eq_left (by omega)] at this
        rw [this, List.take_set_of_le (by omega)]
      · rw [hPr]; exact ⟨by omega, i4⟩
      · intro hf
        rw [hPr]
        simp only [pos, i5 hf, Nat.mul_add, Nat.mul_one]
        omega
      · intro ht
        obtain ⟨j1, j2⟩ := i6 ht
        rw [hPr]
        refine ⟨?_, by simp [pos, j2]⟩
        simp only [pos, List.prod_cons]
        rw [← j1, Nat.mul_add, Nat.mul_one]
        omega
    · rw [if_neg hc]
      have hsync : Synced g { pos := st.pos.set gd (x + 1), idx := stepIdx g gd 1 st.idx } :=
        synced_step hs gd (x + 1) hgd' _ (by rw [hx]; omega)
      have hPr : (st.pos.set gd (x + 1)).drop gd = (x + 1) :: st.pos.drop (gd + 1) := by
        rw [List.drop_eq_getElem_cons (by simpa using hgd')]
        rw [List.drop_set_of_lt (by omega)]; simp
      refine ⟨hsync, by simpa using h2, by simp [List.take_set_of_le], ?_, ?_, by simp⟩
      · simp only [hPr]; exact ⟨by omega, hin'⟩
      · intro _; simp only [hPr, pos]; omega

end Fimex.ArrayLoop
