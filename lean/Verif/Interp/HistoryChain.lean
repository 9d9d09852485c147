import Verif.Interp.HistoryProps
import Verif.CoordSys.TemplateProps

/-!
# C118: with the models of the single steps

The conditions of C118 hold for the systems of `findBestHorizontalCoordinateSystems` (C99), `changeCDM` (C100) and
`changeCDMToLatLonTemplate` (C117), whatever is left of the dataset when they fail.  Lists of points change the dataset as it is, so a second
call is not the same as the first one.
-/

namespace Fimex.History

open Cdm CoordSys Cf Change Template

variable {V CS Pr T α O : Type}

/-! ## Variables are only removed -/

theorem lookup_erase {β : Type} (k : String) (m : List (String × β)) (n : String) (x : β) (h : lookup (erase k m) n = some x) : lookup m n = some x := by
  unfold erase lookup at *
  induction m with
  | nil => exact h
  | cons p m ih =>
    by_cases hp : p.1 = k
    · rw [List.filter_cons_of_neg (by simp [hp])] at h
      have hn := ih h
      by_cases hk : k = n
      · exfalso
        subst hk
        cases hf : (m.filter fun p => decide (p.1 ≠ k)).find? fun p => p.1 == k with
        | none => rw [hf] at h; cases h
        | some q =>
          have h1 := List.mem_of_find?_eq_some hf
          have h2 := List.find?_some hf
          simp only [List.mem_filter, decide_eq_true_eq] at h1
          exact h1.2 (by simpa using h2)
      · rw [List.find?_cons, show (p.1 == n) = false from by rw [hp]; simpa using hk]
        exact hn
    · rw [List.filter_cons_of_pos (by simp [hp]), List.find?_cons] at h
      rw [List.find?_cons]
      by_cases hn : (p.1 == n) = true
      · rw [hn] at h ⊢
        exact h
      · rw [Bool.not_eq_true] at hn
        rw [hn] at h ⊢
        exact ih h

/-- Only variables are removed from the map. -/
def Fewer (m' m : List (String × String)) : Prop := ∀ n k, lookup m' n = some k → lookup m n = some k

theorem Fewer.refl (m : List (String × String)) : Fewer m m := fun _ _ h => h

theorem Fewer.trans {a b c : List (String × String)} (h : Fewer a b) (h' : Fewer b c) : Fewer a c := fun n k e => h' n k (h n k e)

theorem fewer_drop {P : Type} (s : CDM P V CS × List (String × String)) (n : String) : Fewer (drop s n).2 s.2 := fun j x h => lookup_erase n s.2 j x h

theorem fewer_foldl {P : Type} (l : List String) (s : CDM P V CS × List (String × String)) : Fewer (l.foldl drop s).2 s.2 := by
  induction l generalizing s with
  | nil => exact .refl _
  | cons n l ih => exact (ih (drop s n)).trans (fewer_drop s n)

theorem fewer_mappings {P : Type} (L : Lib V Pr) (s : System Pr) (c : CDM P V CS) (m : List (String × String)) : Fewer (dropMappings L s c m).2 m := by
  unfold dropMappings
  split
  · exact fewer_foldl _ _
  · exact .refl _

theorem fewer_lonLat {P : Type} (s : System Pr) (c : CDM P V CS) (m : List (String × String)) : Fewer (dropLonLat s c m).2 m := by
  unfold dropLonLat
  split
  · split
    · exact (fewer_drop _ _).trans (fewer_drop _ _)
    · exact .refl _
  · exact .refl _

theorem fewer_unify {P : Type} {x y : String} {st st' : St P V CS} (h : unify x y st = .ok st') : Fewer st'.mapped st.mapped := by
  unfold unify at h
  by_cases hx : st.x = ""
  · rw [if_pos hx] at h
    cases h
    exact .refl _
  · rw [if_neg hx] at h
    obtain ⟨c, -, h⟩ := Res.bind_eq_ok.1 h
    cases h
    exact (fewer_drop _ _).trans (fewer_drop (c, st.mapped) _)

theorem fewer_changeSystems {P : Type} (L : Lib V Pr) (l : List (System Pr)) {st st' : St P V CS} (h : changeSystems L l st = .ok st') :
    Fewer st'.mapped st.mapped := by
  induction l generalizing st with
  | nil => cases h; exact .refl _
  | cons s l ih =>
    unfold changeSystems at h
    obtain ⟨st1, h1, h⟩ := Res.bind_eq_ok.1 h
    refine (ih h).trans ?_
    unfold changeSystem at h1
    obtain ⟨xy, -, h1⟩ := Res.bind_eq_ok.1 h1
    obtain ⟨st2, h2, h1⟩ := Res.bind_eq_ok.1 h1
    obtain ⟨c, -, h1⟩ := Res.bind_eq_ok.1 h1
    cases h1
    exact ((fewer_lonLat s _ _).trans (fewer_unify h2)).trans (fewer_mappings L s _ _)

theorem fewer_changeCDM [DecidableEq T] {E : Ext V Pr T α} {g : Target T α} {systems : List (String × System Pr)} {m m' : List (String × String)}
    {c c' : CDM (Pay T α O) V CS} (h : changeCDM E g systems m c = .ok (c', m')) : Fewer m' m := by
  unfold changeCDM at h
  obtain ⟨p, -, h⟩ := Res.bind_eq_ok.1 h
  obtain ⟨st, hst, h⟩ := Res.bind_eq_ok.1 h
  obtain ⟨c1, -, h⟩ := Res.bind_eq_ok.1 h
  cases h
  exact fewer_changeSystems _ _ hst

theorem fewer_templateSystems {P : Type} (L : Lib V Pr) (l : List (System Pr)) {st st' : CDM P V CS × List (String × String)}
    (h : templateSystems L l st = .ok st') : Fewer st'.2 st.2 := by
  induction l generalizing st with
  | nil => cases h; exact .refl _
  | cons s l ih =>
    unfold templateSystems at h
    obtain ⟨st1, h1, h⟩ := Res.bind_eq_ok.1 h
    refine (ih h).trans ?_
    unfold templateSystem at h1
    obtain ⟨xy, -, h1⟩ := Res.bind_eq_ok.1 h1
    obtain ⟨c, -, h1⟩ := Res.bind_eq_ok.1 h1
    have h3 : Fewer (dropLonLat s c (dropMappings L s st.1 st.2).2).2 st.2 := (fewer_lonLat s _ _).trans (fewer_mappings L s _ _)
    unfold dropOld at h1
    by_cases hx : "x" ≠ xy.1 ∧ "y" ≠ xy.2
    · rw [if_pos hx] at h1
      obtain ⟨c1, -, h1⟩ := Res.bind_eq_ok.1 h1
      obtain ⟨c2, -, h1⟩ := Res.bind_eq_ok.1 h1
      cases h1
      exact ((fewer_drop _ _).trans (fewer_drop _ _)).trans h3
    · rw [if_neg hx] at h1
      cases h1
      exact h3

theorem fewer_template [DecidableEq T] {E : Ext V Pr T α} {g : Points T α} {systems : List (String × System Pr)} {m m' : List (String × String)}
    {c c' : CDM (Pay T α O) V CS} (h : changeToTemplate E g systems m c = .ok (c', m')) : Fewer m' m := by
  unfold changeToTemplate at h
  obtain ⟨p, -, h⟩ := Res.bind_eq_ok.1 h
  by_cases hp : p ≠ "latlong"
  · rw [if_pos hp] at h
    cases h
  · rw [if_neg hp] at h
    obtain ⟨st, hst, h⟩ := Res.bind_eq_ok.1 h
    obtain ⟨c1, -, h⟩ := Res.bind_eq_ok.1 h
    cases h
    exact fewer_templateSystems _ _ hst

theorem best_mapped {P : Type} {c : CDM P V CS} {wp : Bool} {l : List (System Pr)} {b : Best Pr} (h : findBest wp l c = .ok b) :
    ∀ n k, lookup b.mapped n = some k → ∃ s, (k, s) ∈ b.systems := by
  intro n k hk
  obtain ⟨hm, -, hs⟩ := findBest_ok h
  have hmem : (n, k) ∈ b.mapped := by
    unfold lookup at hk
    cases hf : b.mapped.find? fun p => p.1 == n with
    | none => rw [hf] at hk; cases hk
    | some q =>
      rw [hf] at hk
      cases hk
      have h1 := List.mem_of_find?_eq_some hf
      have h2 : q.1 = n := by simpa using List.find?_some hf
      rw [← h2]
      exact h1
  rw [hm] at hmem
  obtain ⟨-, -, -, -, -, -, t, ht⟩ := ((mapVariables_spec l (systemMap wp l) c.vars).2 n k).1 hmem
  obtain ⟨q, hq, e⟩ := forall2_left (each_ok hs) ht
  obtain ⟨s, -, e2⟩ := Res.bind_eq_ok.1 e
  cases e2
  exact ⟨s, hq⟩

/-! ## The interpolator with these models -/

/-- The functions of an interpolator are those of C99, C100 and C117 as long as they come to their end. -/
structure Modelled [DecidableEq T] (X : Ext V Pr T α) {Rd Req Pts Sec I M : Type} (list : Rd → List (System Pr)) (target : Req → Target T α) (pts : Pts → Points T α)
    (E : Env Rd (CDM (Pay T α O) V CS) (System Pr) Req Pts Sec I M) : Prop where
  systems : ∀ w rd m ss bad, E.systems w rd = (m, .ok (ss, bad)) → findBest w (list rd) (E.dataset rd) = .ok ⟨ss, m, bad⟩
  change : ∀ r ss d m d' m', E.change r ss (d, m) = ((d', m'), .ok ()) → changeCDM X (target r) ss m d = .ok (d', m')
  points : ∀ p ss d m d' m', E.changePoints p ss (d, m) = ((d', m'), .ok ()) → changeToTemplate X (pts p) ss m d = .ok (d', m')

/-- **C118.** The conditions of the other theorems hold for the models of the single steps. -/
theorem C118_sound [DecidableEq T] {X : Ext V Pr T α} {Rd Req Pts Sec I M : Type} {list : Rd → List (System Pr)} {target : Req → Target T α} {pts : Pts → Points T α}
    {E : Env Rd (CDM (Pay T α O) V CS) (System Pr) Req Pts Sec I M} (h : Modelled X list target pts E) : Sound E where
  keys w rd m ss bad hs n k hk := best_mapped (h.systems w rd m ss bad hs) n k hk
  change r ss d m d' m' hc := fewer_changeCDM (h.change r ss d m d' m' hc)
  points p ss d m d' m' hc := fewer_template (h.points p ss d m d' m' hc)

/-! ## Cases -/

/-- An interpolator of the toy datasets of C100 and C117. -/
def datasets : Env (CDM (Pay Bool Nat Unit) String Unit) (CDM (Pay Bool Nat Unit) String Unit) (System String) Unit Unit Unit Unit Unit where
  dataset rd := rd
  vars d := d.vars.map fun v => ⟨v.name, v.payload.data.isSome, none⟩
  without := removeVariable
  coordinates rd := (rd, .ok ())
  systems w rd := match listCF toyLib rd with
    | .ok l => match findBest w l rd with
      | .ok b => (b.mapped, if b.systems.isEmpty then .throws else .ok (b.systems, b.incompatible))
      | _ => ([], .throws)
    | _ => ([], .throws)
  change _ ss s := match changeCDM toyExt (toTarget "+proj=lcc") ss s.2 s.1 with
    | .ok r => (r, .ok ())
    | _ => (s, .throws)
  changePoints _ ss s := match changeToTemplate toyExt Template.points ss s.2 s.1 with
    | .ok r => (r, .ok ())
    | _ => (s, .throws)
  readable _ _ := .ok ()
  comparable _ _ := .ok ()
  grid _ _ _ _ := .ok ()
  gridPoints _ _ _ := .ok ()
  matrix _ _ := .ok ()
  matrixPoints _ _ := .ok ()
  refused _ := false
  uneven _ := false
  sections _ _ _ d := (d, .ok ())

example : Modelled toyExt (fun rd => match listCF toyLib rd with | .ok l => l | _ => []) (fun _ : Unit => toTarget "+proj=lcc") (fun _ : Unit => Template.points) datasets where
  systems w rd m ss bad h := by
    simp only [datasets] at h
    cases hl : listCF toyLib rd with
    | ok l =>
      rw [hl] at h
      simp only at h
      show findBest w l rd = _
      cases hb : findBest w l rd with
      | ok b =>
        rw [hb] at h
        simp only at h
        by_cases he : b.systems.isEmpty = true
        · rw [if_pos he] at h
          cases h
        · rw [if_neg he] at h
          cases h
          rfl
      | throws => rw [hb] at h; cases h
      | ub => rw [hb] at h; cases h
    | throws => rw [hl] at h; cases h
    | ub => rw [hl] at h; cases h
  change r ss d m d' m' h := by
    simp only [datasets] at h
    cases hc : changeCDM toyExt (toTarget "+proj=lcc") ss m d with
    | ok q => rw [hc] at h; cases h; rfl
    | throws => rw [hc] at h; cases h
    | ub => rw [hc] at h; cases h
  points r ss d m d' m' h := by
    simp only [datasets] at h
    cases hc : changeToTemplate toyExt Template.points ss m d with
    | ok q => rw [hc] at h; cases h; rfl
    | throws => rw [hc] at h; cases h
    | ub => rw [hc] at h; cases h

/-- A grid of longitudes and latitudes. -/
def lonLat (lon lat : String) : CDM (Pay Bool Nat Unit) String Unit :=
  dataset [(lon, 5), (lat, 6)] [(lon, [lon], [("units", "degrees_east")]), (lat, [lat], [("units", "degrees_north")]), ("T", [lon, lat], [])]

/-- How calls end. -/
def ends (c : CDM (Pay Bool Nat Unit) String Unit) : List (Call Unit Unit Unit) → List (Res Unit)
  | [] => []
  | l => (l.foldl (fun (s : State _ _ _ _ × List (Res Unit)) c => ((run datasets s.1 c).1, s.2 ++ [(run datasets s.1 c).2])) (fresh datasets c, [])).2

/-- **C118 does not hold for lists of points.** The same points a second time: the axes of the grid are asked for in the dataset that has been
changed, and that is an error; with a change to other axes in between it is not. -/
theorem C118_points_twice : ends (lonLat "lon" "lat") [.points .projection (), .points .projection ()] = [.ok (), .throws] ∧
    ends (lonLat "lon" "lat") [.points .projection (), .axes .other (), .points .projection ()] = [.ok (), .throws, .ok ()] := by decide +kernel

end Fimex.History
