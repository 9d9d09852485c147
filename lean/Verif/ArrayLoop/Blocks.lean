import Verif.ArrayLoop.Named

/-!
# Loops over blocks

A group whose arrays have their first dimensions in common: the loop visits blocks, and within a block the places of
all arrays go up together.
-/

namespace Fimex.ArrayLoop

/-- The visits of a loop with a common block of the first `k` dimensions. -/
structure BlockVisited (len : String → Nat) (g : Group) (as : List Dims) (k : Nat) : Prop where
  positive : 0 < ((g.dims.drop k).map len).prod
  volume : g.sharedVolume = ((g.dims.take k).map len).prod
  /-- `next` tells whether there is another visit. -/
  last : ∀ n, n < ((g.dims.drop k).map len).prod →
    ((next g (after g n)).2 = true ↔ n + 1 < ((g.dims.drop k).map len).prod)
  /-- What is seen at visit `n`: the beginning of a block. -/
  visit : ∀ n, n < ((g.dims.drop k).map len).prod → ∃ σ : String → Nat, (∀ d ∈ g.dims.take k, σ d = 0) ∧
    (∀ d ∈ g.dims.drop k, σ d < len d) ∧ pos ((g.dims.drop k).map len) ((g.dims.drop k).map σ) = n ∧
    (after g n).idx = as.map fun a => (pos a.length (named a σ) : Int)
  /-- The places of a block. -/
  block : ∀ a ∈ as, ∀ σ τ : String → Nat, (∀ d ∈ g.dims.take k, σ d = 0) → (∀ d ∈ g.dims.drop k, σ d = τ d) →
    pos a.length (named a τ) = pos a.length (named a σ) + pos ((g.dims.take k).map len) ((g.dims.take k).map τ)

theorem pos_zeros : ∀ (s : List Nat) (l : List String) (σ : String → Nat), (∀ d ∈ l, σ d = 0) → pos s (l.map σ) = 0
  | [], _, _, _ => rfl
  | _ :: _, [], _, _ => rfl
  | n :: s, d :: l, σ, h => by
    rw [List.map_cons, pos, h d (by simp), pos_zeros s l σ fun e he => h e (by simp [he])]
    simp

theorem blockVisited {len : String → Nat} {g : Group} {as : List Dims} {k : Nat} (hg : GroupOK g) (hz : Sized len g)
    (hk : g.sharedDims = some k) (hm : g.arrays.map Prod.fst = as) (hc : ∀ a ∈ as, Contiguous a)
    (hpos : ∀ d ∈ g.dims, 0 < len d) : BlockVisited len g as k := by
  obtain ⟨hkl, hvol⟩ := hg.vol k hk
  have hkd : k ≤ g.dims.length := by rw [hg.len]; exact hkl
  have hll : loopLengths g = (g.dims.drop k).map len := by simp [loopLengths, hk, hz.lengths]
  have hp' : ∀ l ∈ loopLengths g, 0 < l := by
    rw [hll]; intro l hl
    obtain ⟨d, hd, rfl⟩ := List.mem_map.1 hl
    exact hpos d (List.mem_of_mem_drop hd)
  refine ⟨prod_positive _ (by rw [← hll]; exact hp'), by rw [hvol, hz.lengths, List.map_take], ?_, ?_, ?_⟩
  · intro n hn
    rw [← hll] at hn ⊢
    obtain ⟨h1, h2, h3, h4, h5⟩ := after_spec hg hp' n hn
    have := nextGo_spec g (g.lengths.length - g.sharedDims.getD g.lengths.length)
        (g.sharedDims.getD g.lengths.length) (after g n) _ (by rw [hk]; simp only [Option.getD_some]; omega) h2 h1 rfl h4
    obtain ⟨-, -, -, i4, i5, i6⟩ := this
    have h5' : pos (List.drop (g.sharedDims.getD g.lengths.length) g.lengths)
      (List.drop (g.sharedDims.getD g.lengths.length) (after g n).pos) = n := h5
    rw [h5'] at i5 i6
    simp only [next, Bool.not_eq_true', loopLengths]
    constructor
    · intro hf
      have := i5 hf
      have hlt := pos_lt i4
      omega
    · intro hlt
      cases hc : (nextGo g (g.lengths.length - g.sharedDims.getD g.lengths.length)
        (g.sharedDims.getD g.lengths.length) (after g n)).2 with
      | false => rfl
      | true => have := (i6 hc).1; omega
  · intro n hn
    rw [← hll] at hn
    obtain ⟨h1, h2, h3, h4, h5⟩ := after_spec hg hp' n hn
    simp only [hk, Option.getD_some] at h3 h4 h5
    rw [hll] at h4 h5
    have hq : (after g n).pos.length = g.dims.length := by rw [h2, hg.len]
    set σ := assign g.dims (after g n).pos with hσ
    have hmap : g.dims.map σ = (after g n).pos := map_assign hg.nodup hq
    have hdrop : (g.dims.drop k).map σ = (after g n).pos.drop k := by rw [List.map_drop, hmap]
    have htake : (g.dims.take k).map σ = List.replicate k 0 := by rw [List.map_take, hmap, h3]
    refine ⟨σ, ?_, ?_, by rw [hdrop]; exact h5, ?_⟩
    · intro d hd
      have : σ d ∈ (g.dims.take k).map σ := List.mem_map_of_mem hd
      rw [htake] at this
      exact List.eq_of_mem_replicate this
    · intro d hd
      rw [← hdrop] at h4
      have hnd : (g.dims.drop k).Nodup := hg.nodup.sublist (List.drop_sublist _ _)
      have := inShape_of_map h4 d hd
      have e : assign (g.dims.drop k) ((g.dims.drop k).map σ) d = σ d := by
        have hidx := List.idxOf_lt_length_iff.2 hd
        unfold assign
        rw [List.getD_eq_getElem?_getD, List.getElem?_map, List.getElem?_eq_getElem hidx, List.getElem_idxOf]
        rfl
      rwa [e] at this
    · rw [h1, ← hm, List.map_map]
      refine List.map_congr_left fun am ham => ?_
      have e := dot_eq_offsetOf hg ham (after g n).pos 0 (by rw [hq]; omega)
      rw [List.drop_zero] at e
      rw [e]
      have e2 := offsetOf_eq_pos (hg.arr am ham).1 (hc am.1 (by rw [← hm]; exact List.mem_map_of_mem ham)) hg.nodup
        (fun i n hi hs => shared_in_dims hg ham hi hs) σ
      rw [hmap] at e2
      exact e2
  · intro a ha σ τ h0 heq
    rw [← hm, List.mem_map] at ha
    obtain ⟨am, ham, rfl⟩ := ha
    obtain ⟨p1, p2⟩ := hg.pre k hk am ham
    obtain ⟨w, mk⟩ := hg.arr am ham
    -- the first dimensions of the array are those of the group
    have hfirst : ∀ i, i < k → am.1.shared.getD i false = true ∧ am.1.name[i]? = g.dims[i]? ∧
        am.1.length[i]? = g.lengths[i]? := by
      intro i hi
      have hid : i < g.dims.length := by omega
      have hmi := mk.map i _ (List.getElem?_eq_getElem hid)
      rw [p1 i hi (by omega)] at hmi
      obtain ⟨-, s2, s3⟩ := sharedBelow_some (Option.some.inj hmi).symm
      have hsh : am.1.isShared i = am.1.shared.getD i false := by
        have : i < am.1.rank := by omega
        simp [Dims.isShared, this]
      refine ⟨by rw [← hsh]; exact s2, by rw [s3, List.getElem?_eq_getElem hid], ?_⟩
      obtain ⟨gd, c1, c2⟩ := mk.cov i (by omega) s2
      rw [s3] at c1
      have : gd = i := nodup_get_inj hg.nodup c1 (List.getElem?_eq_getElem hid)
      subst this
      exact c2.symm
    have hname : am.1.name.take k = g.dims.take k := by
      apply List.ext_getElem?
      intro i
      rw [List.getElem?_take, List.getElem?_take]
      split_ifs with hi
      · exact (hfirst i hi).2.1
      · rfl
    have hlength : am.1.length.take k = (g.dims.take k).map len := by
      rw [List.map_take, ← hz.lengths]
      apply List.ext_getElem?
      intro i
      rw [List.getElem?_take, List.getElem?_take]
      split_ifs with hi
      · exact (hfirst i hi).2.2
      · rfl
    have hshared : am.1.shared.take k = List.replicate k true := by
      have hl : k ≤ am.1.shared.length := by rw [w.shared]; exact p2
      apply List.ext_getElem
      · simp [hl]
      · intro i h1 h2
        simp only [List.length_replicate] at h2
        have := (hfirst i h2).1
        rw [List.getD_eq_getElem?_getD, List.getElem?_eq_getElem (by omega)] at this
        simpa using this
    have hsplit : ∀ ρ : String → Nat, named am.1 ρ = (g.dims.take k).map ρ ++
        List.zipWith (fun n sh => if sh then ρ n else 0) (am.1.name.drop k) (am.1.shared.drop k) := by
      intro ρ
      unfold named
      conv_lhs => rw [← List.take_append_drop k am.1.name, ← List.take_append_drop k am.1.shared]
      rw [List.zipWith_append (by
        rw [List.length_take, List.length_take, w.name, w.shared]), hname, hshared]
      congr 1
      apply List.ext_getElem
      · simp [hkd]
      · intro i h1 h2
        simp
    have hrest : List.zipWith (fun n sh => if sh then σ n else 0) (am.1.name.drop k) (am.1.shared.drop k) =
        List.zipWith (fun n sh => if sh then τ n else 0) (am.1.name.drop k) (am.1.shared.drop k) := by
      apply List.ext_getElem
      · simp
      · intro i h1 h2
        simp only [List.getElem_zipWith]
        by_cases hs : (am.1.shared.drop k)[i]'(by simp at h1 ⊢; omega) = true
        · rw [if_pos hs, if_pos hs]
          have hi1 : i < (am.1.name.drop k).length := by simp at h1 ⊢; omega
          have hnm : am.1.name[k + i]? = some ((am.1.name.drop k)[i]) := by
            rw [List.getElem_drop, List.getElem?_eq_getElem]
          have hsh : am.1.shared.getD (k + i) false = true := by
            rw [List.getElem_drop] at hs
            rw [List.getD_eq_getElem?_getD, List.getElem?_eq_getElem (by simp at h1; omega)]
            simpa using hs
          have hin := shared_in_dims hg ham hnm hsh
          refine heq _ ?_
          have hcases : (am.1.name.drop k)[i] ∈ g.dims.take k ++ g.dims.drop k := by
            rw [List.take_append_drop]; exact hin
          rcases List.mem_append.1 hcases with h' | h'
          · exfalso
            rw [← hname] at h'
            obtain ⟨j, hj, e⟩ := List.mem_iff_getElem.1 h'
            rw [List.getElem_take] at e
            have hjk : j < k := by simp at hj; omega
            have hjn : j < am.1.name.length := by simp at hj; omega
            have := nodup_get_inj w.nodup (i := j) (j := k + i) (by rw [List.getElem?_eq_getElem hjn, e]) hnm
            omega
          · exact h'
        · rw [if_neg hs, if_neg hs]
    have hlen2 : am.1.length = (g.dims.take k).map len ++ am.1.length.drop k := by
      rw [← hlength, List.take_append_drop]
    rw [hlen2, hsplit τ, hsplit σ, pos_append _ _ _ _ (by simp), pos_append _ _ _ _ (by simp), hrest,
      pos_zeros _ _ σ h0]
    omega

end Fimex.ArrayLoop
