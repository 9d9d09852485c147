import Verif.Aggregation.SetModel
import Verif.Cdm.Props

/-! # Growing datasets -/

namespace Fimex.AggSet

open Cdm

variable {R D V CS : Type}

/-- There is at most one unlimited dimension. -/
def OneUnlimited (c : DS R D V CS) : Prop := ∀ d ∈ c.dims, ∀ e ∈ c.dims, d.unlimited = true → e.unlimited = true → d = e

/-- `c'` is `c` with dimensions of `r` and the variables `vs`, which have the attributes they have in `r`. -/
structure Grown (r c c' : DS R D V CS) (vs : List (Var (Body R D))) : Prop where
  inv : Inv c'
  vars : c'.vars = c.vars ++ vs
  dims : ∃ ds, c'.dims = c.dims ++ ds ∧ ∀ d ∈ ds, d ∈ r.dims
  attrs : ∀ n, (∀ v ∈ vs, v.name ≠ n) → getAttributes c' n = getAttributes c n
  own : ∀ v ∈ vs, getAttributes c' v.name = getAttributes r v.name
  unl : (∃ d ∈ c.dims, d.unlimited = true) → ∀ d ∈ c'.dims, d.unlimited = true → d ∈ c.dims
  one : OneUnlimited c → OneUnlimited c'

theorem Grown.refl (r : DS R D V CS) {c : DS R D V CS} (h : Inv c) : Grown r c c [] :=
  ⟨h, by simp, ⟨[], by simp, by simp⟩, fun _ _ => rfl, by simp, fun _ d hd _ => hd, id⟩

theorem Grown.mem {r c c' : DS R D V CS} {vs : List (Var (Body R D))} (h : Grown r c c' vs) {d : Dim} (hd : d ∈ c.dims) : d ∈ c'.dims := by
  obtain ⟨ds, e, _⟩ := h.dims
  rw [e]; exact List.mem_append_left _ hd

theorem Grown.trans {r c c1 c2 : DS R D V CS} {vs ws : List (Var (Body R D))} (h : Grown r c c1 vs) (g : Grown r c1 c2 ws) : Grown r c c2 (vs ++ ws) := by
  refine ⟨g.inv, by rw [g.vars, h.vars, List.append_assoc], ?_, ?_, ?_, ?_, fun ho => g.one (h.one ho)⟩
  · obtain ⟨d1, e1, m1⟩ := h.dims
    obtain ⟨d2, e2, m2⟩ := g.dims
    refine ⟨d1 ++ d2, by rw [e2, e1, List.append_assoc], fun d hd => ?_⟩
    rcases List.mem_append.1 hd with h' | h'
    · exact m1 d h'
    · exact m2 d h'
  · intro n hn
    rw [g.attrs n fun v hv => hn v (List.mem_append_right _ hv), h.attrs n fun v hv => hn v (List.mem_append_left _ hv)]
  · intro v hv
    rcases List.mem_append.1 hv with h' | h'
    · rw [g.attrs v.name, h.own v h']
      intro w hw e
      have := g.inv.vars
      rw [g.vars, h.vars, List.map_append, List.nodup_append, List.map_append] at this
      exact this.2.2 _ (List.mem_append_right _ (List.mem_map_of_mem h')) _ (List.mem_map_of_mem hw) e.symm
    · exact g.own v h'
  · rintro ⟨d, hd, hu⟩ e he heu
    exact h.unl ⟨d, hd, hu⟩ e (g.unl ⟨d, h.mem hd, hu⟩ e he heu) heu

theorem findDim_some {c : DS R D V CS} {n : String} {d : Dim} (h : findDim c n = some d) : d ∈ c.dims ∧ d.name = n :=
  ⟨List.mem_of_find?_eq_some h, by simpa using List.find?_some h⟩

theorem findDim_none {c : DS R D V CS} {n : String} (h : findDim c n = none) : hasDimension c n = false := by
  unfold findDim at h
  unfold hasDimension
  rw [List.any_eq_false]
  exact List.find?_eq_none.1 h

theorem Inv.dim_eq {c : DS R D V CS} (h : Inv c) {d e : Dim} (hd : d ∈ c.dims) (he : e ∈ c.dims) (hn : d.name = e.name) : d = e :=
  List.inj_on_of_nodup_map h.dims hd he hn

theorem Inv.var_eq {c : DS R D V CS} (h : Inv c) {v w : Var (Body R D)} (hv : v ∈ c.vars) (hw : w ∈ c.vars) (hn : v.name = w.name) : v = w :=
  List.inj_on_of_nodup_map h.vars hv hw hn

/-- Adding a dimension of `r`. -/
theorem addDim_grown {r c : DS R D V CS} (h : Inv c) {d : Dim} (hd : d ∈ r.dims) (hn : hasDimension c d.name = false)
    (hu : d.unlimited = true → ∀ e ∈ c.dims, e.unlimited = false) :
    addDimension c d = ((addDimension c d).1, .ok ()) ∧ Grown r c (addDimension c d).1 [] ∧ (addDimension c d).1.dims = c.dims ++ [d] := by
  have hn' : hasDimension { c with coordsInitialized := false } d.name = false := hn
  have e : addDimension c d = ({ c with coordsInitialized := false, dims := c.dims ++ [d] }, .ok ()) := by
    simp [addDimension, hn']
  rw [e]
  refine ⟨rfl, ⟨?_, by simp, ⟨[d], rfl, by simpa using hd⟩, fun _ _ => rfl, by simp, ?_, ?_⟩, rfl⟩
  · refine ⟨h.vars, ?_, h.attrNames, h.owners⟩
    have hx : d.name ∉ c.dims.map (·.name) := fun hh => by
      rw [← hasDimension_iff, hn] at hh; cases hh
    simp only [List.map_append, List.map_cons, List.map_nil]
    rw [List.nodup_append]
    exact ⟨h.dims, by simp, fun a ha b hb ea => hx (by rw [← List.mem_singleton.1 hb, ← ea]; exact ha)⟩
  · rintro ⟨e, he, heu⟩ f hf hfu
    rcases List.mem_append.1 hf with h' | h'
    · exact h'
    · rw [List.mem_singleton.1 h'] at hfu
      rw [hu hfu e he] at heu; cases heu
  · intro ho a ha b hb hau hbu
    rcases List.mem_append.1 ha with h1 | h1 <;> rcases List.mem_append.1 hb with h2 | h2
    · exact ho a h1 b h2 hau hbu
    · rw [List.mem_singleton.1 h2] at hbu
      rw [hu hbu a h1] at hau; cases hau
    · rw [List.mem_singleton.1 h1] at hau
      rw [hu hau b h2] at hbu; cases hbu
    · rw [List.mem_singleton.1 h1, List.mem_singleton.1 h2]

/-- Adding a variable with the attributes it has in `r` raises no error. -/
theorem copyVar_grown {r c : DS R D V CS} (h : Inv c) (hr : Inv r) {v : Var (Body R D)} (hn : hasVariable c v.name = false) (hg : v.name ≠ globalNS) :
    ∃ c', copyVar r v c = (c', .ok ()) ∧ Grown r c c' [v] ∧ c'.dims = c.dims := by
  have hn' : hasVariable { c with coordsInitialized := false } v.name = false := hn
  have e : addVariable c v = ({ c with coordsInitialized := false, vars := c.vars ++ [v] }, .ok ()) := by
    simp [addVariable, hn']
  have ha : c.attrs v.name = none := by
    by_contra hc
    rcases h.owners v.name hc with h' | h'
    · exact hg h'
    · rw [hn] at h'; cases h'
  have hga : getAttributes ({ c with coordsInitialized := false, vars := c.vars ++ [v] } : DS R D V CS) v.name = [] := by
    simp [getAttributes, ha]
  obtain ⟨c', h1, h2, h3, h4, h5, h6, h7⟩ := addAttributes_ok v.name (getAttributes r v.name)
    ({ c with coordsInitialized := false, vars := c.vars ++ [v] } : DS R D V CS) (.inr (by simp [hasVariable]))
    (by rw [hga, List.nil_append]; exact nodup_getAttributes r hr v.name)
  refine ⟨c', by simp only [copyVar, e]; exact h1, ⟨?_, h2, ⟨[], by simpa using h3, by simp⟩, ?_, ?_, fun _ d hd _ => by rw [h3] at hd; exact hd, ?_⟩, h3⟩
  · have hx : v.name ∉ c.vars.map (·.name) := fun hh => by
      rw [← hasVariable_iff, hn] at hh; cases hh
    refine ⟨?_, by rw [h3]; exact h.dims, ?_, ?_⟩
    · rw [h2]
      simp only [List.map_append, List.map_cons, List.map_nil]
      rw [List.nodup_append]
      exact ⟨h.vars, by simp, fun a ha b hb ea => hx (by rw [← List.mem_singleton.1 hb, ← ea]; exact ha)⟩
    · intro n l hl
      by_cases hnv : n = v.name
      · subst hnv
        have : getAttributes c' v.name = l := by simp [getAttributes, hl]
        rw [← this, h5, hga, List.nil_append]
        exact nodup_getAttributes r hr v.name
      · rw [h6 n hnv] at hl
        exact h.attrNames n l hl
    · intro n hl
      by_cases hnv : n = v.name
      · right
        rw [hnv, hasVariable_iff, h2]
        simp
      · rw [h6 n hnv] at hl
        rcases h.owners n hl with h' | h'
        · exact .inl h'
        · right
          rw [hasVariable_iff] at h' ⊢
          rw [h2, List.map_append]
          exact List.mem_append_left _ h'
  · intro n hn
    have : n ≠ v.name := fun e => hn v (by simp) e.symm
    simp only [getAttributes, h6 n this]
  · intro w hw
    rw [List.mem_singleton.1 hw, h5, hga, List.nil_append]
  · intro ho
    unfold OneUnlimited
    rw [h3]
    exact ho

/-- The loop over the dimensions of a variable to join. -/
theorem joinDims_grown {r : DS R D V CS} (hr : OneUnlimited r) {u : Dim} (hu : u ∈ r.dims) (huu : u.unlimited = true) :
    ∀ (l : List String) (c c' : DS R D V CS) (b b' : Bool), Inv c → joinDims r u.name l c b = (c', .ok b') →
      Grown r c c' [] ∧ (b' = true → b = true ∧ ∀ n ∈ l, n ≠ u.name → ∃ d ∈ c'.dims, ∃ e ∈ r.dims, d.name = n ∧ e.name = n ∧ d.length = e.length) ∧
        (b' = false → b = false ∨ ∃ n ∈ l, n ≠ u.name ∧ ∃ d ∈ c'.dims, ∃ e ∈ r.dims, d.name = n ∧ e.name = n ∧ d.length ≠ e.length)
  | [], c, c', b, b', hi, h => by
    simp only [joinDims, Prod.mk.injEq, Res.ok.injEq] at h
    obtain ⟨rfl, rfl⟩ := h
    exact ⟨Grown.refl r hi, fun hb => ⟨hb, by simp⟩, fun hb => .inl hb⟩
  | n :: l, c, c', b, b', hi, h => by
    unfold joinDims at h
    split at h
    · rename_i hn
      obtain ⟨h1, h2, h3⟩ := joinDims_grown hr hu huu l c c' b b' hi h
      refine ⟨h1, fun hb => ⟨(h2 hb).1, fun m hm hne => ?_⟩, fun hb => ?_⟩
      · rcases List.mem_cons.1 hm with rfl | hm
        · exact absurd hn hne
        · exact (h2 hb).2 m hm hne
      · rcases h3 hb with h' | ⟨m, hm, h'⟩
        · exact .inl h'
        · exact .inr ⟨m, List.mem_cons_of_mem _ hm, h'⟩
    · rename_i hn
      split at h
      · cases h
      · rename_i d hd
        obtain ⟨hd1, hd2⟩ := findDim_some hd
        split at h
        · rename_i hc
          have hc' := findDim_none hc
          rw [← hd2] at hc'
          have hdu : d.unlimited = false := by
            by_contra hx
            exact hn (hd2 ▸ congrArg Dim.name (hr d hd1 u hu (by simpa using hx) huu))
          obtain ⟨-, g1, g2⟩ := addDim_grown (r := r) hi hd1 hc' (fun hx => by rw [hdu] at hx; cases hx)
          obtain ⟨h1, h2, h3⟩ := joinDims_grown hr hu huu l _ c' b b' g1.inv h
          refine ⟨g1.trans h1, fun hb => ⟨(h2 hb).1, fun m hm hne => ?_⟩, fun hb => ?_⟩
          · rcases List.mem_cons.1 hm with rfl | hm
            · exact ⟨d, h1.mem (by rw [g2]; simp), d, hd1, hd2, hd2, rfl⟩
            · exact (h2 hb).2 m hm hne
          · rcases h3 hb with h' | ⟨m, hm, h'⟩
            · exact .inl h'
            · exact .inr ⟨m, List.mem_cons_of_mem _ hm, h'⟩
        · rename_i e he
          obtain ⟨he1, he2⟩ := findDim_some he
          obtain ⟨h1, h2, h3⟩ := joinDims_grown hr hu huu l c c' _ b' hi h
          refine ⟨h1, fun hb => ?_, fun hb => ?_⟩
          · obtain ⟨h4, h5⟩ := h2 hb
            simp only [Bool.and_eq_true, decide_eq_true_eq] at h4
            refine ⟨h4.1, fun m hm hne => ?_⟩
            rcases List.mem_cons.1 hm with rfl | hm
            · exact ⟨e, h1.mem he1, d, hd1, he2, hd2, h4.2⟩
            · exact h5 m hm hne
          · rcases h3 hb with h' | ⟨m, hm, h'⟩
            · simp only [Bool.and_eq_false_iff, decide_eq_false_iff_not] at h'
              rcases h' with h' | h'
              · exact .inl h'
              · exact .inr ⟨n, by simp, hn, e, h1.mem he1, d, hd1, he2, hd2, h'⟩
            · exact .inr ⟨m, List.mem_cons_of_mem _ hm, h'⟩

/-- A dimension on which two datasets do not agree. -/
def Clash0 (c r : DS R D V CS) (n : String) : Prop :=
  ∃ e ∈ r.dims, e.name = n ∧
    ((∃ d ∈ c.dims, d.name = n ∧ (d.unlimited ≠ e.unlimited ∨ d.length ≠ e.length)) ∨ (e.unlimited = true ∧ ∃ d ∈ c.dims, d.unlimited = true ∧ d.name ≠ n))

theorem getUnlimitedDim_isSome {c : DS R D V CS} : (getUnlimitedDim c).isSome = true ↔ ∃ d ∈ c.dims, d.unlimited = true := by
  unfold getUnlimitedDim
  rw [List.find?_isSome]

/-- The loop over the dimensions of a variable that is not joined. -/
theorem unionDims_grown {r : DS R D V CS} :
    ∀ (l : List String) (c c' : DS R D V CS) (b b' : Bool), Inv c → unionDims r l c b = (c', .ok b') →
      Grown r c c' [] ∧ (b' = true → b = true ∧ ∀ n ∈ l, ∃ d ∈ c'.dims, d ∈ r.dims ∧ d.name = n) ∧
        (b' = false → b = false ∨ ∃ n ∈ l, Clash0 c' r n)
  | [], c, c', b, b', hi, h => by
    simp only [unionDims, Prod.mk.injEq, Res.ok.injEq] at h
    obtain ⟨rfl, rfl⟩ := h
    exact ⟨Grown.refl r hi, fun hb => ⟨hb, by simp⟩, fun hb => .inl hb⟩
  | n :: l, c, c', b, b', hi, h => by
    unfold unionDims at h
    split at h
    · cases h
    · rename_i d hd
      obtain ⟨hd1, hd2⟩ := findDim_some hd
      split at h
      · rename_i e he
        obtain ⟨he1, he2⟩ := findDim_some he
        obtain ⟨h1, h2, h3⟩ := unionDims_grown l c c' _ b' hi h
        refine ⟨h1, fun hb => ?_, fun hb => ?_⟩
        · obtain ⟨h4, h5⟩ := h2 hb
          simp only [Bool.and_eq_true, decide_eq_true_eq] at h4
          refine ⟨h4.1, fun m hm => ?_⟩
          rcases List.mem_cons.1 hm with rfl | hm
          · have : e = d := by
              cases e; cases d
              simp only at h4 he2 hd2 ⊢
              rw [Dim.mk.injEq]
              exact ⟨he2.trans hd2.symm, h4.2.2.symm, h4.2.1⟩
            exact ⟨e, h1.mem he1, this ▸ hd1, he2⟩
          · exact h5 m hm
        · rcases h3 hb with h' | ⟨m, hm, h'⟩
          · simp only [Bool.and_eq_false_iff, decide_eq_false_iff_not] at h'
            rcases h' with h' | h'
            · exact .inl h'
            · refine .inr ⟨n, by simp, d, hd1, hd2, .inl ⟨e, h1.mem he1, he2, ?_⟩⟩
              by_contra hx
              push Not at hx
              exact h' ⟨hx.1, hx.2.symm⟩
          · exact .inr ⟨m, List.mem_cons_of_mem _ hm, h'⟩
      · rename_i hc
        have hc' := findDim_none hc
        split at h
        · rename_i hu
          obtain ⟨h1, h2, h3⟩ := unionDims_grown l c c' _ b' hi h
          refine ⟨h1, fun hb => ?_, fun hb => .inr ?_⟩
          · have := (h2 hb).1
            cases this
          · simp only [Bool.and_eq_true, getUnlimitedDim_isSome] at hu
            obtain ⟨hu1, e, he, heu⟩ := hu
            refine ⟨n, by simp, d, hd1, hd2, .inr ⟨hu1, e, h1.mem he, heu, fun hne => ?_⟩⟩
            have : n ∈ c.dims.map (·.name) := hne ▸ List.mem_map_of_mem he
            rw [← hasDimension_iff, hc'] at this
            cases this
        · rename_i hu
          rw [← hd2] at hc'
          obtain ⟨-, g1, g2⟩ := addDim_grown (r := r) hi hd1 hc' (fun hx e he => by
            by_contra hy
            apply hu
            rw [Bool.and_eq_true, getUnlimitedDim_isSome]
            exact ⟨hx, e, he, by simpa using hy⟩)
          obtain ⟨h1, h2, h3⟩ := unionDims_grown l _ c' b b' g1.inv h
          refine ⟨g1.trans h1, fun hb => ⟨(h2 hb).1, fun m hm => ?_⟩, fun hb => ?_⟩
          · rcases List.mem_cons.1 hm with rfl | hm
            · exact ⟨d, h1.mem (by rw [g2]; simp), hd1, hd2⟩
            · exact (h2 hb).2 m hm
          · rcases h3 hb with h' | ⟨m, hm, h'⟩
            · exact .inl h'
            · exact .inr ⟨m, List.mem_cons_of_mem _ hm, h'⟩

/-! ## Loops over variables -/

theorem noData_name (v : Var (Body R D)) : (noData v).name = v.name := rfl

theorem hasVariable_grown {r c c' : DS R D V CS} {vs : List (Var (Body R D))} (h : Grown r c c' vs) {n : String} (hn : hasVariable c n = true) :
    hasVariable c' n = true := by
  rw [hasVariable_iff] at hn ⊢
  rw [h.vars, List.map_append]
  exact List.mem_append_left _ hn

/-- Taking the data away from the variable that was added last. -/
theorem Grown.dropData {r c c' : DS R D V CS} {v : Var (Body R D)} (h : Grown r c c' [v]) :
    Grown r c { c' with vars := c'.vars.map fun w => if w.name = v.name then noData w else w } [noData v] := by
  have hv : (c'.vars.map fun w => if w.name = v.name then noData w else w) = c.vars ++ [noData v] := by
    rw [h.vars, List.map_append]
    congr 1
    · conv => rhs; rw [← List.map_id c.vars]
      apply List.map_congr_left
      intro w hw
      rw [if_neg]; · rfl
      intro e
      have := h.inv.vars
      rw [h.vars, List.map_append, List.nodup_append] at this
      exact this.2.2 _ (List.mem_map_of_mem hw) v.name (by simp) e
    · simp
  have hn : (c'.vars.map fun w => if w.name = v.name then noData w else w).map (·.name) = c'.vars.map (·.name) := by
    rw [List.map_map]
    apply List.map_congr_left
    intro w _
    simp only [Function.comp]
    split <;> rfl
  refine ⟨⟨by rw [hn]; exact h.inv.vars, h.inv.dims, h.inv.attrNames, fun n hl => ?_⟩, hv, h.dims, fun n hne => ?_, fun w hw => ?_, h.unl, h.one⟩
  · rcases h.inv.owners n hl with h' | h'
    · exact .inl h'
    · right
      rw [hasVariable_iff] at h' ⊢
      rw [hn]
      exact h'
  · exact h.attrs n fun w hw => by rw [List.mem_singleton.1 hw]; exact hne (noData v) (by simp)
  · rw [List.mem_singleton.1 hw]
    exact h.own v (by simp)

/-- The loop over variables to join along the dimension `u`. -/
theorem joinExistingVars_grown {r : DS R D V CS} (hr : Inv r) (ho : OneUnlimited r) (hg : ∀ v ∈ r.vars, v.name ≠ globalNS) {u : Dim}
    (hu : getUnlimitedDim r = some u) :
    ∀ (l : List (Var (Body R D))) (s s' : State R D V CS), (∀ v ∈ l, v ∈ r.vars) → Inv s.cdm → joinExistingVars r u.name l s = (s', .ok ()) →
      ∃ vs : List (Var (Body R D)), (∀ v ∈ vs, v ∈ l ∧ u.name ∈ v.shape ∧
          ∀ n ∈ v.shape, n ≠ u.name → ∃ d ∈ s'.cdm.dims, ∃ e ∈ r.dims, d.name = n ∧ e.name = n ∧ d.length = e.length) ∧
        Grown r s.cdm s'.cdm (vs.map noData) ∧ s' = { s with cdm := s'.cdm, join := s.join ++ vs.map (·.name) } ∧
        ∀ v ∈ l, u.name ∈ v.shape → hasVariable s'.cdm v.name = true ∨
          ∃ n ∈ v.shape, n ≠ u.name ∧ ∃ d ∈ s'.cdm.dims, ∃ e ∈ r.dims, d.name = n ∧ e.name = n ∧ d.length ≠ e.length
  | [], s, s', _, hi, h => by
    simp only [joinExistingVars, Prod.mk.injEq] at h
    obtain ⟨rfl, -⟩ := h
    exact ⟨[], by simp, Grown.refl r hi, by simp, by simp⟩
  | v :: l, s, s', hl, hi, h => by
    have hl' : ∀ w ∈ l, w ∈ r.vars := fun w hw => hl w (List.mem_cons_of_mem _ hw)
    have hmem : ∀ w, hasUnlimitedDim r w = true ↔ u.name ∈ w.shape := fun w => by simp [hasUnlimitedDim, hu]
    have hur : u ∈ r.dims := List.mem_of_find?_eq_some hu
    have huu : u.unlimited = true := by simpa using List.find?_some hu
    unfold joinExistingVars at h
    split at h
    · rename_i hv
      obtain ⟨vs, h1, h2, h3, h4⟩ := joinExistingVars_grown hr ho hg hu l s s' hl' hi h
      refine ⟨vs, fun w hw => ⟨List.mem_cons_of_mem _ (h1 w hw).1, (h1 w hw).2⟩, h2, h3, fun w hw hwu => ?_⟩
      rcases List.mem_cons.1 hw with rfl | hw
      · exact .inl (hasVariable_grown h2 hv)
      · exact h4 w hw hwu
    · rename_i hv
      split at h
      · rename_i hvu
        split at h
        · rename_i c1 hc
          obtain ⟨g1, g2, -⟩ := joinDims_grown ho hur huu v.shape s.cdm c1 true true hi hc
          have hv' : hasVariable c1 v.name = false := by
            unfold hasVariable
            rw [g1.vars, List.append_nil]
            exact Bool.eq_false_iff.2 hv
          obtain ⟨c2, e1, e2, e3⟩ := copyVar_grown g1.inv hr hv' (hg v (hl v (by simp)))
          rw [e1] at h
          have g3 := g1.trans e2.dropData
          obtain ⟨vs, h1, h2, h3, h4⟩ := joinExistingVars_grown hr ho hg hu l _ s' hl' g3.inv h
          have g4 := g3.trans h2
          refine ⟨v :: vs, fun w hw => ?_, by simpa using g4, ?_, fun w hw hwu => ?_⟩
          · rcases List.mem_cons.1 hw with rfl | hw
            · refine ⟨by simp, (hmem w).1 hvu, fun n hn hne => ?_⟩
              obtain ⟨d, hd, e, he, hh⟩ := (g2 rfl).2 n hn hne
              exact ⟨d, h2.mem (by rw [show ({ c2 with vars := c2.vars.map fun x => if x.name = w.name then noData x else x } : DS R D V CS).dims = c1.dims from e3]; exact hd), e, he, hh⟩
            · exact ⟨List.mem_cons_of_mem _ (h1 w hw).1, (h1 w hw).2⟩
          · rw [h3]
            simp
          · rcases List.mem_cons.1 hw with rfl | hw
            · refine .inl ?_
              rw [hasVariable_iff, g4.vars]
              simp [noData_name]
            · exact h4 w hw hwu
        · rename_i c1 hc
          obtain ⟨g1, -, g2⟩ := joinDims_grown ho hur huu v.shape s.cdm c1 true false hi hc
          obtain ⟨vs, h1, h2, h3, h4⟩ := joinExistingVars_grown hr ho hg hu l _ s' hl' g1.inv h
          refine ⟨vs, fun w hw => ⟨List.mem_cons_of_mem _ (h1 w hw).1, (h1 w hw).2⟩, by simpa using g1.trans h2, h3, fun w hw hwu => ?_⟩
          rcases List.mem_cons.1 hw with rfl | hw
          · right
            rcases g2 rfl with h' | ⟨n, hn, hne, d, hd, e, he, hh⟩
            · cases h'
            · exact ⟨n, hn, hne, d, h2.mem hd, e, he, hh⟩
          · exact h4 w hw hwu
        · cases h
        · cases h
      · rename_i hvu
        obtain ⟨vs, h1, h2, h3, h4⟩ := joinExistingVars_grown hr ho hg hu l s s' hl' hi h
        refine ⟨vs, fun w hw => ⟨List.mem_cons_of_mem _ (h1 w hw).1, (h1 w hw).2⟩, h2, h3, fun w hw hwu => ?_⟩
        rcases List.mem_cons.1 hw with rfl | hw
        · exact absurd ((hmem w).2 hwu) hvu
        · exact h4 w hw hwu

/-- The loop over variables to join along a new dimension. -/
theorem joinNewVars_grown {r : DS R D V CS} (hr : Inv r) (hg : ∀ v ∈ r.vars, v.name ≠ globalNS) {jd : String} :
    ∀ (l : List (Var (Body R D))) (s : State R D V CS), (∀ v ∈ l, v ∈ r.vars) → Inv s.cdm →
      ∃ s', joinNewVars r jd l s = (s', .ok ()) ∧
      ∃ vs : List (Var (Body R D)), (∀ v ∈ vs, v ∈ l ∧ v.name ∈ s.join) ∧ Grown r s.cdm s'.cdm (vs.map (longer jd)) ∧ s' = { s with cdm := s'.cdm } ∧
        s'.cdm.dims = s.cdm.dims ∧ ∀ v ∈ l, v.name ∈ s.join → hasVariable s'.cdm v.name = true
  | [], s, _, hi => ⟨s, rfl, [], by simp, Grown.refl r hi, rfl, rfl, by simp⟩
  | v :: l, s, hl, hi => by
    have hl' : ∀ w ∈ l, w ∈ r.vars := fun w hw => hl w (List.mem_cons_of_mem _ hw)
    unfold joinNewVars
    split
    · rename_i hv
      simp only [Bool.and_eq_true, Bool.not_eq_true', List.contains_iff_mem] at hv
      obtain ⟨c1, e1, e2, e3⟩ := copyVar_grown (v := longer jd v) hi hr hv.1 (hg v (hl v (by simp)))
      rw [e1]
      obtain ⟨s', h0, vs, h1, h2, h3, h4, h5⟩ := joinNewVars_grown hr hg (jd := jd) l { s with cdm := c1 } hl' e2.inv
      have g := e2.trans h2
      refine ⟨s', h0, v :: vs, fun w hw => ?_, by simpa using g, h3, by rw [h4, e3], fun w hw hj => ?_⟩
      · rcases List.mem_cons.1 hw with rfl | hw
        · exact ⟨by simp, hv.2⟩
        · exact ⟨List.mem_cons_of_mem _ (h1 w hw).1, (h1 w hw).2⟩
      · rcases List.mem_cons.1 hw with rfl | hw
        · rw [hasVariable_iff, g.vars]
          simp [longer]
        · exact h5 w hw hj
    · rename_i hv
      obtain ⟨s', h0, vs, h1, h2, h3, h4, h5⟩ := joinNewVars_grown hr hg (jd := jd) l s hl' hi
      refine ⟨s', h0, vs, fun w hw => ⟨List.mem_cons_of_mem _ (h1 w hw).1, (h1 w hw).2⟩, h2, h3, h4, fun w hw hj => ?_⟩
      rcases List.mem_cons.1 hw with rfl | hw
      · refine hasVariable_grown h2 ?_
        by_contra hx
        exact hv (by simp [hj, hx])
      · exact h5 w hw hj

theorem lookup_append {α : Type} (n : String) : ∀ (l m : List (String × α)), (l ++ m).lookup n = (l.lookup n).or (m.lookup n)
  | [], m => by simp
  | (a, b) :: l, m => by
    by_cases h : n = a
    · subst h; simp [List.lookup]
    · have : (n == a) = false := by simpa using h
      simp only [List.cons_append, List.lookup, this]
      exact lookup_append n l m

theorem lookup_map_const {k : ℕ} (n : String) : ∀ (l : List (Var (Body R D))),
    (l.map fun v => (v.name, k)).lookup n = if n ∈ l.map (·.name) then some k else none
  | [] => rfl
  | v :: l => by
    by_cases h : n = v.name
    · subst h; simp
    · have : (n == v.name) = false := by simpa using h
      simp only [List.map_cons, List.lookup, this, lookup_map_const n l, List.mem_cons, h, false_or]

/-- Every variable is joined or has a provider. -/
def Covered (s : State R D V CS) : Prop := ∀ n, hasVariable s.cdm n = true → n ∈ s.join ∨ (s.provider.lookup n).isSome = true

/-- The loop over variables that are not joined. -/
theorem unionVars_grown {r : DS R D V CS} (hr : Inv r) (hg : ∀ v ∈ r.vars, v.name ≠ globalNS) {k : ℕ} :
    ∀ (l : List (Var (Body R D))) (s s' : State R D V CS), (∀ v ∈ l, v ∈ r.vars) → Inv s.cdm → Covered s → unionVars r k l s = (s', .ok ()) →
      ∃ vs : List (Var (Body R D)), (∀ v ∈ vs, v ∈ l ∧ v.name ∉ s.join ∧ s.provider.lookup v.name = none ∧ ∀ n ∈ v.shape, ∃ d ∈ s'.cdm.dims, d ∈ r.dims ∧ d.name = n) ∧
        Grown r s.cdm s'.cdm vs ∧ s' = { s with cdm := s'.cdm, provider := s.provider ++ vs.map fun v => (v.name, k) } ∧ Covered s' ∧
        ∀ v ∈ l, v.name ∈ s.join ∨ (s'.provider.lookup v.name).isSome = true ∨ ∃ n ∈ v.shape, Clash0 s'.cdm r n
  | [], s, s', _, hi, hc, h => by
    simp only [unionVars, Prod.mk.injEq] at h
    obtain ⟨rfl, -⟩ := h
    exact ⟨[], by simp, Grown.refl r hi, by simp, hc, by simp⟩
  | v :: l, s, s', hl, hi, hc, h => by
    have hl' : ∀ w ∈ l, w ∈ r.vars := fun w hw => hl w (List.mem_cons_of_mem _ hw)
    unfold unionVars at h
    split at h
    · rename_i hv
      obtain ⟨vs, h1, h2, h3, h4, h5⟩ := unionVars_grown hr hg l s s' hl' hi hc h
      refine ⟨vs, fun w hw => ⟨List.mem_cons_of_mem _ (h1 w hw).1, (h1 w hw).2⟩, h2, h3, h4, fun w hw => ?_⟩
      rcases List.mem_cons.1 hw with rfl | hw
      · exact .inl (by simpa using hv)
      · exact h5 w hw
    · rename_i hv
      split at h
      · rename_i hp
        obtain ⟨vs, h1, h2, h3, h4, h5⟩ := unionVars_grown hr hg l s s' hl' hi hc h
        refine ⟨vs, fun w hw => ⟨List.mem_cons_of_mem _ (h1 w hw).1, (h1 w hw).2⟩, h2, h3, h4, fun w hw => ?_⟩
        rcases List.mem_cons.1 hw with rfl | hw
        · refine .inr (.inl ?_)
          rw [h3, lookup_append, Option.isSome_or, hp]
          rfl
        · exact h5 w hw
      · rename_i hp
        split at h
        · rename_i c1 hd
          obtain ⟨g1, g2, -⟩ := unionDims_grown v.shape s.cdm c1 true true hi hd
          have hv' : hasVariable c1 v.name = false := by
            unfold hasVariable
            rw [g1.vars, List.append_nil]
            by_contra hx
            rcases hc v.name (by simpa [hasVariable] using hx) with h' | h'
            · exact hv (by simpa using h')
            · exact hp h'
          obtain ⟨c2, e1, e2, e3⟩ := copyVar_grown g1.inv hr hv' (hg v (hl v (by simp)))
          rw [e1] at h
          have g3 := g1.trans e2
          have hc' : Covered ({ s with cdm := c2, provider := s.provider ++ [(v.name, k)] } : State R D V CS) := by
            intro n hn
            rw [hasVariable_iff, g3.vars] at hn
            simp only [List.nil_append, List.map_append, List.map_cons, List.map_nil, List.mem_append, List.mem_singleton] at hn
            rw [lookup_append, Option.isSome_or]
            rcases hn with hn | rfl
            · rcases hc n (by rw [hasVariable_iff]; exact hn) with h' | h'
              · exact .inl h'
              · exact .inr (by rw [h']; rfl)
            · exact .inr (by simp [List.lookup])
          obtain ⟨vs, h1, h2, h3, h4, h5⟩ := unionVars_grown hr hg l _ s' hl' g3.inv hc' h
          have g4 := g3.trans h2
          refine ⟨v :: vs, fun w hw => ?_, by simpa using g4, ?_, h4, fun w hw => ?_⟩
          · rcases List.mem_cons.1 hw with rfl | hw
            · refine ⟨by simp, by simpa using hv, Option.not_isSome_iff_eq_none.1 hp, fun n hn => ?_⟩
              obtain ⟨d, hd, hh⟩ := (g2 rfl).2 n hn
              exact ⟨d, h2.mem (by rw [show ({ s with cdm := c2, provider := s.provider ++ [(w.name, k)] } : State R D V CS).cdm.dims = c1.dims from e3]; exact hd), hh⟩
            · obtain ⟨a1, a2, a3, a4⟩ := h1 w hw
              refine ⟨List.mem_cons_of_mem _ a1, a2, ?_, a4⟩
              rw [lookup_append] at a3
              exact (Option.or_eq_none_iff.1 a3).1
          · rw [h3]
            simp
          · rcases List.mem_cons.1 hw with rfl | hw
            · refine .inr (.inl ?_)
              rw [h3, lookup_append, lookup_append, Option.isSome_or, Option.isSome_or]
              simp [List.lookup]
            · exact h5 w hw
        · rename_i c1 hd
          obtain ⟨g1, -, g2⟩ := unionDims_grown v.shape s.cdm c1 true false hi hd
          have hc' : Covered ({ s with cdm := c1 } : State R D V CS) := fun n hn => by
            rw [hasVariable_iff, g1.vars, List.append_nil] at hn
            exact hc n (by rw [hasVariable_iff]; exact hn)
          obtain ⟨vs, h1, h2, h3, h4, h5⟩ := unionVars_grown hr hg l _ s' hl' g1.inv hc' h
          refine ⟨vs, fun w hw => ⟨List.mem_cons_of_mem _ (h1 w hw).1, (h1 w hw).2⟩, by simpa using g1.trans h2, h3, h4, fun w hw => ?_⟩
          rcases List.mem_cons.1 hw with rfl | hw
          · right; right
            rcases g2 rfl with h' | ⟨n, hn, e, he, hen, hh⟩
            · cases h'
            · refine ⟨n, hn, e, he, hen, ?_⟩
              rcases hh with ⟨d, hd, hh⟩ | ⟨hu, d, hd, hh⟩
              · exact .inl ⟨d, h2.mem hd, hh⟩
              · exact .inr ⟨hu, d, h2.mem hd, hh⟩
          · exact h5 w hw
        · cases h
        · cases h

end Fimex.AggSet
