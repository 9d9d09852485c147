import Verif.CoordSys.ProjText

/-!
# The parameters of a projection

What is found in `params_` after any sequence of `addParameter`.
-/

namespace Fimex.Proj

variable {K : Type}

/-- The names that exclude each other: a sphere, or an ellipsoid. -/
def Clash (m n : String) : Prop :=
  (m = "earth_radius" ∧ (n = "semi_major_axis" ∨ n = "semi_minor_axis" ∨ n = "inverse_flattening")) ∨
  (n = "earth_radius" ∧ (m = "semi_major_axis" ∨ m = "semi_minor_axis" ∨ m = "inverse_flattening"))

instance (m n : String) : Decidable (Clash m n) := by unfold Clash; infer_instance

/-- Every name once, not both a radius and axes, and no other `grid_mapping_name` than that of the class. -/
structure Tidy (L : Lib K) (name : Text) (ps : List (Attr K)) : Prop where
  once : (ps.map (·.name)).Nodup
  earth : ∀ a ∈ ps, ∀ b ∈ ps, ¬ Clash a.name b.name
  mapping : ∀ a ∈ ps, a.name = "grid_mapping_name" → a.str L = name

theorem find_cons {n : String} {a : Attr K} {ps : List (Attr K)} :
    find n (a :: ps) = if a.name = n then some a else find n ps := by
  unfold find
  rw [List.find?_cons]
  by_cases h : a.name = n <;> simp [h]

theorem find_nil {n : String} : find n ([] : List (Attr K)) = none := rfl

theorem find_some {n : String} {a : Attr K} : ∀ {ps : List (Attr K)}, find n ps = some a → a ∈ ps ∧ a.name = n
  | [], h => by cases h
  | b :: ps, h => by
    rw [find_cons] at h
    split at h
    · cases h; exact ⟨by simp, by assumption⟩
    · exact ⟨List.mem_cons_of_mem _ (find_some h).1, (find_some h).2⟩

theorem find_none {n : String} : ∀ {ps : List (Attr K)}, find n ps = none ↔ ∀ a ∈ ps, a.name ≠ n
  | [] => by simp [find_nil]
  | b :: ps => by
    rw [find_cons]
    by_cases h : b.name = n
    · simp [h]
    · simp [h, find_none (ps := ps)]

theorem find_replace {n : String} {a : Attr K} : ∀ {ps : List (Attr K)},
    find n (replace a ps) = if a.name = n then some a else find n ps
  | [] => by rw [replace, find_cons, find_nil]
  | b :: ps => by
    rw [replace]
    split
    · rename_i hb
      rw [find_cons, find_cons, hb]
      split <;> rfl
    · rename_i hb
      rw [find_cons, find_cons, find_replace]
      by_cases h : b.name = n
      · rw [if_pos h, if_pos h, if_neg (fun e => hb (h.trans e.symm))]
      · rw [if_neg h, if_neg h]

theorem mem_remove {n : String} {a : Attr K} {ps : List (Attr K)} (h : a ∈ remove n ps) : a ∈ ps := List.mem_of_mem_eraseP h

theorem remove_cons {n : String} {a : Attr K} {ps : List (Attr K)} :
    remove n (a :: ps) = if a.name = n then ps else a :: remove n ps := by
  unfold remove
  rw [List.eraseP_cons]
  by_cases h : a.name = n <;> simp [h]

theorem find_remove {n m : String} (hnm : n ≠ m) : ∀ {ps : List (Attr K)}, find n (remove m ps) = find n ps
  | [] => rfl
  | a :: ps => by
    rw [remove_cons]
    split
    · rename_i h
      rw [find_cons, if_neg (fun e => hnm (e.symm.trans h))]
    · rw [find_cons, find_cons, find_remove hnm]

theorem find_removed {n : String} : ∀ {ps : List (Attr K)}, (ps.map (·.name)).Nodup → find n (remove n ps) = none
  | [], _ => rfl
  | a :: ps, h => by
    rw [List.map_cons, List.nodup_cons] at h
    rw [remove_cons]
    split
    · rename_i e
      rw [find_none]
      intro b hb hn
      exact h.1 (List.mem_map.2 ⟨b, hb, hn.trans e.symm⟩)
    · rename_i e
      rw [find_cons, if_neg e, find_removed h.2]

theorem nodup_remove {n : String} {ps : List (Attr K)} (h : (ps.map (·.name)).Nodup) : ((remove n ps).map (·.name)).Nodup :=
  h.sublist (List.eraseP_sublist.map _)

theorem mem_replace {a b : Attr K} : ∀ {ps : List (Attr K)}, b ∈ replace a ps → b = a ∨ b ∈ ps
  | [], h => by simpa [replace] using h
  | c :: ps, h => by
    rw [replace] at h
    split at h
    · rcases List.mem_cons.1 h with h | h
      · exact .inl h
      · exact .inr (List.mem_cons_of_mem _ h)
    · rcases List.mem_cons.1 h with h | h
      · exact .inr (by simp [h])
      · rcases mem_replace h with h | h
        · exact .inl h
        · exact .inr (List.mem_cons_of_mem _ h)

theorem nodup_replace {a : Attr K} : ∀ {ps : List (Attr K)}, (ps.map (·.name)).Nodup → ((replace a ps).map (·.name)).Nodup
  | [], _ => by simp [replace]
  | c :: ps, h => by
    rw [List.map_cons, List.nodup_cons] at h
    rw [replace]
    split
    · rename_i e
      rw [List.map_cons, List.nodup_cons, ← e]
      exact h
    · rename_i e
      rw [List.map_cons, List.nodup_cons]
      refine ⟨fun hm => ?_, nodup_replace h.2⟩
      obtain ⟨b, hb, hn⟩ := List.mem_map.1 hm
      rcases mem_replace hb with rfl | hb
      · exact e hn.symm
      · exact h.1 (List.mem_map.2 ⟨b, hb, hn⟩)

/-- What remains of the old parameters. -/
def others (a : Attr K) (ps : List (Attr K)) : List (Attr K) :=
  semiSet.foldl (fun ps n => if a.name = n then remove "earth_radius" ps else ps)
    (if a.name = "earth_radius" then semiSet.foldl (fun ps n => remove n ps) ps else ps)

theorem addParameter_def {L : Lib K} {name : Text} {a : Attr K} {ps : List (Attr K)} :
    addParameter L name a ps =
      if a.name = "grid_mapping_name" ∧ a.str L ≠ name then .throws else .ok (replace a (others a ps)) := rfl

theorem others_cases (a : Attr K) (ps : List (Attr K)) :
    (a.name = "earth_radius" ∧ others a ps = remove "inverse_flattening" (remove "semi_minor_axis" (remove "semi_major_axis" ps))) ∨
    (a.name ∈ semiSet ∧ others a ps = remove "earth_radius" ps) ∨
    (a.name ≠ "earth_radius" ∧ a.name ∉ semiSet ∧ others a ps = ps) := by
  unfold others semiSet
  simp only [List.foldl_cons, List.foldl_nil, List.mem_cons, List.not_mem_nil, or_false]
  by_cases h0 : a.name = "earth_radius"
  · left; simp [h0]
  · by_cases h1 : a.name = "semi_major_axis"
    · right; left; simp [h1]
    · by_cases h2 : a.name = "semi_minor_axis"
      · right; left; simp [h2]
      · by_cases h3 : a.name = "inverse_flattening"
        · right; left; simp [h3]
        · right; right; simp [h0, h1, h2, h3]

theorem mem_others {a b : Attr K} {ps : List (Attr K)} (h : b ∈ others a ps) : b ∈ ps := by
  rcases others_cases a ps with ⟨-, e⟩ | ⟨-, e⟩ | ⟨-, -, e⟩ <;> rw [e] at h
  · exact mem_remove (mem_remove (mem_remove h))
  · exact mem_remove h
  · exact h

theorem nodup_others {a : Attr K} {ps : List (Attr K)} (h : (ps.map (·.name)).Nodup) : ((others a ps).map (·.name)).Nodup := by
  rcases others_cases a ps with ⟨-, e⟩ | ⟨-, e⟩ | ⟨-, -, e⟩ <;> rw [e]
  · exact nodup_remove (nodup_remove (nodup_remove h))
  · exact nodup_remove h
  · exact h

theorem find_others {a : Attr K} {ps : List (Attr K)} (h : (ps.map (·.name)).Nodup) (n : String) :
    find n (others a ps) = if Clash a.name n then none else find n ps := by
  rcases others_cases a ps with ⟨ha, e⟩ | ⟨ha, e⟩ | ⟨h0, hs, e⟩ <;> rw [e]
  · by_cases h3 : n = "inverse_flattening"
    · subst h3
      rw [find_removed (nodup_remove (nodup_remove h)), if_pos (by simp [Clash, ha])]
    · rw [find_remove h3]
      by_cases h2 : n = "semi_minor_axis"
      · subst h2
        rw [find_removed (nodup_remove h), if_pos (by simp [Clash, ha])]
      · rw [find_remove h2]
        by_cases h1 : n = "semi_major_axis"
        · subst h1
          rw [find_removed h, if_pos (by simp [Clash, ha])]
        · rw [find_remove h1, if_neg (by simp [Clash, ha, h1, h2, h3])]
  · by_cases h0 : n = "earth_radius"
    · subst h0
      rw [find_removed h, if_pos (by simpa [Clash, semiSet] using ha)]
    · rw [find_remove h0, if_neg]
      rintro (⟨h, -⟩ | ⟨h, -⟩)
      · rw [h] at ha; simp [semiSet] at ha
      · exact h0 h
  · rw [if_neg]
    rintro (⟨h, -⟩ | ⟨-, h⟩)
    · exact h0 h
    · exact hs (by simpa [semiSet] using h)

theorem tidy_add {L : Lib K} {name : Text} {a : Attr K} {ps ps' : List (Attr K)} (h : Tidy L name ps)
    (ha : addParameter L name a ps = .ok ps') : Tidy L name ps' := by
  rw [addParameter_def] at ha
  split at ha
  · cases ha
  · rename_i hm
    cases ha
    have key : ∀ b ∈ others a ps, ¬ Clash a.name b.name := by
      intro b hb hc
      have := find_others (a := a) h.once b.name
      rw [if_pos hc, find_none] at this
      exact this b hb rfl
    have symm : ∀ {m n : String}, Clash m n → Clash n m := fun h => h.elim (fun h => .inr h) (fun h => .inl h)
    have self : ¬ Clash a.name a.name := by
      rintro (⟨h1, h2⟩ | ⟨h1, h2⟩) <;> rw [h1] at h2 <;> simp at h2
    refine ⟨nodup_replace (nodup_others h.once), fun b hb c hc => ?_, fun b hb hn => ?_⟩
    · rcases mem_replace hb with rfl | hb <;> rcases mem_replace hc with rfl | hc
      · exact self
      · exact key _ hc
      · exact fun h => key _ hb (symm h)
      · exact h.earth _ (mem_others hb) _ (mem_others hc)
    · rcases mem_replace hb with rfl | hb
      · by_contra hne; exact hm ⟨hn, hne⟩
      · exact h.mapping _ (mem_others hb) hn

theorem find_add {L : Lib K} {name : Text} {a : Attr K} {ps ps' : List (Attr K)} (h : (ps.map (·.name)).Nodup)
    (ha : addParameter L name a ps = .ok ps') (n : String) :
    find n ps' = if a.name = n then some a else if Clash a.name n then none else find n ps := by
  rw [addParameter_def] at ha
  split at ha
  · cases ha
  · cases ha
    rw [find_replace, find_others h]

/-- One more parameter, for the lookups. -/
def upd (f : String → Option (Attr K)) (a : Attr K) : String → Option (Attr K) := fun n =>
  if a.name = n then some a else if Clash a.name n then none else f n

theorem addParameters_spec {L : Lib K} {name : Text} : ∀ {as ps : List (Attr K)}, Tidy L name ps →
    match addParameters L name as ps with
    | .ok ps' => Tidy L name ps' ∧ (fun n => find n ps') = as.foldl upd (fun n => find n ps) ∧
        ∀ a ∈ as, a.name = "grid_mapping_name" → a.str L = name
    | .throws => ∃ a ∈ as, a.name = "grid_mapping_name" ∧ a.str L ≠ name
    | .ub => False
  | [], ps, h => ⟨h, rfl, by simp⟩
  | a :: as, ps, h => by
    show match addParameter L name a ps >>= addParameters L name as with
      | .ok ps' => _ | .throws => _ | .ub => False
    cases ha : addParameter L name a ps with
    | throws =>
      rw [Res.throws_bind]
      rw [addParameter_def] at ha
      split at ha
      · exact ⟨a, by simp, by assumption⟩
      · cases ha
    | ub =>
      rw [addParameter_def] at ha
      split at ha <;> cases ha
    | ok ps1 =>
      rw [Res.ok_bind]
      have ih := addParameters_spec (as := as) (tidy_add h ha)
      have hm : a.name = "grid_mapping_name" → a.str L = name := by
        rw [addParameter_def] at ha
        split at ha
        · cases ha
        · rename_i hm
          intro hn
          by_contra hne
          exact hm ⟨hn, hne⟩
      cases hr : addParameters L name as ps1 with
      | ok ps' =>
        rw [hr] at ih
        refine ⟨ih.1, ?_, fun b hb => ?_⟩
        · rw [ih.2.1, List.foldl_cons]
          congr 1
          funext n
          exact find_add h.once ha n
        · rcases List.mem_cons.1 hb with rfl | hb
          · exact hm
          · exact ih.2.2 b hb
      | throws =>
        rw [hr] at ih
        obtain ⟨b, hb, h1⟩ := ih
        exact ⟨b, List.mem_cons_of_mem _ hb, h1⟩
      | ub => rw [hr] at ih; exact ih

/-! ## Lookups -/

/-- The last attribute of a name. -/
def lastOf (as : List (Attr K)) (n : String) : Option (Attr K) := find n as.reverse

theorem lastOf_nil (n : String) : lastOf ([] : List (Attr K)) n = none := rfl

theorem find_append {n : String} {xs ys : List (Attr K)} : find n (xs ++ ys) = (find n xs).or (find n ys) := by
  unfold find
  rw [List.find?_append]

theorem lastOf_append (xs ys : List (Attr K)) (n : String) : lastOf (xs ++ ys) n = (lastOf ys n).or (lastOf xs n) := by
  unfold lastOf
  rw [List.reverse_append, find_append]

theorem lastOf_cons (a : Attr K) (xs : List (Attr K)) (n : String) :
    lastOf (a :: xs) n = (lastOf xs n).or (if a.name = n then some a else none) := by
  have : a :: xs = [a] ++ xs := rfl
  rw [this, lastOf_append]
  congr 1
  unfold lastOf
  rw [List.reverse_singleton, find_cons, find_nil]

theorem lastOf_none {n : String} {as : List (Attr K)} (h : ∀ a ∈ as, a.name ≠ n) : lastOf as n = none :=
  find_none.2 fun a ha => h a (List.mem_reverse.1 ha)

/-- The names of the figure of the earth. -/
def earthNames : List String := ["earth_radius", "semi_major_axis", "semi_minor_axis", "inverse_flattening"]

theorem foldl_other {n : String} (hn : n ∉ earthNames) : ∀ (as : List (Attr K)) (f : String → Option (Attr K)),
    as.foldl upd f n = (lastOf as n).or (f n)
  | [], f => rfl
  | a :: as, f => by
    rw [List.foldl_cons, foldl_other hn, lastOf_cons]
    have hc : ¬ Clash a.name n := by
      unfold earthNames at hn
      simp only [List.mem_cons, List.not_mem_nil, or_false, not_or] at hn
      rintro (⟨-, h⟩ | ⟨h, -⟩)
      · exact h.elim hn.2.1 fun h => h.elim hn.2.2.1 hn.2.2.2
      · exact hn.1 h
    unfold upd
    rw [if_neg hc]
    cases lastOf as n <;> by_cases h : a.name = n <;> simp [h]

theorem foldl_earth {n : String} (hn : n ∈ earthNames) : ∀ (as : List (Attr K)) (f : String → Option (Attr K)),
    as.foldl upd f n = (as.filter fun a => a.name ∈ earthNames).foldl upd f n
  | [], f => rfl
  | a :: as, f => by
    rw [List.foldl_cons, List.filter_cons]
    by_cases ha : a.name ∈ earthNames
    · rw [if_pos (by simpa using ha), List.foldl_cons]
      exact foldl_earth hn as _
    · rw [if_neg (by simpa using ha), ← foldl_earth hn as f]
      have : ∀ g g' : String → Option (Attr K), (∀ m ∈ earthNames, g m = g' m) → ∀ as : List (Attr K), as.foldl upd g n = as.foldl upd g' n := by
        intro g g' h as
        induction as generalizing g g' with
        | nil => exact h n hn
        | cons b as ih =>
          rw [List.foldl_cons, List.foldl_cons]
          refine ih _ _ fun m hm => ?_
          unfold upd
          split
          · rfl
          · split
            · rfl
            · exact h m hm
      refine this _ _ (fun m hm => ?_) as
      unfold upd
      rw [if_neg (fun e : a.name = m => ha (by rw [e]; exact hm)), if_neg]
      rintro (⟨h, -⟩ | ⟨-, h⟩)
      · rw [h] at ha; simp [earthNames] at ha
      · rcases h with h | h | h <;> rw [h] at ha <;> simp [earthNames] at ha

end Fimex.Proj
