import Verif.Basic
import Mathlib.Data.List.Nodup
import Mathlib.Data.List.Dedup
import Mathlib.Data.List.Perm.Subperm
import Mathlib.Tactic.Tauto
import Mathlib.Tactic.ByContra

/-!
# Auxiliary variables

Model of `addAuxiliary`, `src/CDMMergeUtils.cc:121-156`, with C43.  A `std::set<std::string>` is a list without
duplicates; its order has no influence here.  A coordinate system is the predicate "complete coordinate system for this
variable" with the list of its dependency variables (`src/coordSys/CoordinateSystem.cc:531-538`, first match).
-/

namespace Fimex.Auxiliary

/-! ## Model -/

/-- A variable of the CDM: name and shape. -/
structure Var where
  name : String
  shape : List String

/-- A coordinate system. -/
structure CoordSys where
  completeFor : String → Bool
  dependencies : List String

/-- `CDM::hasVariable` -/
def hasVariable (cdm : List Var) (n : String) : Bool := cdm.any fun v => v.name == n

/-- `CDM::getVariable(n).getShape()`, called for existing variables only. -/
def shapeOf (cdm : List Var) (n : String) : List String :=
  match cdm.find? fun v => v.name == n with
  | some v => v.shape
  | none => []

/-- `findCompleteCoordinateSystemFor` and `getDependencyVariables`; nothing without coordinate system. -/
def dependenciesOf (coordSys : List CoordSys) (n : String) : List String :=
  match coordSys.find? fun c => c.completeFor n with
  | some c => c.dependencies
  | none => []

/-- `inserted |= variables.insert(x).second` for all `x`. -/
def insertAll : List String → List String → Bool → List String × Bool
  | vars, [], inserted => (vars, inserted)
  | vars, x :: xs, inserted => if x ∈ vars then insertAll vars xs inserted else insertAll (vars ++ [x]) xs true

/-- src/CDMMergeUtils.cc:124-136: the dimension variables of the present variables. -/
def dimVars (cdm : List Var) (vars : List String) : List String :=
  vars.flatMap fun v => if hasVariable cdm v = true then (shapeOf cdm v).filter fun d => hasVariable cdm d else []

/-- src/CDMMergeUtils.cc:121-152: one pass, and whether it inserted anything. -/
def pass (cdm : List Var) (coordSys : List CoordSys) (vars : List String) : List String × Bool :=
  let r1 := insertAll vars (dimVars cdm vars) false
  insertAll r1.1 (r1.1.flatMap (dependenciesOf coordSys)) r1.2

/-- src/CDMMergeUtils.cc:153-155: the recursion, with `fuel` calls at most (`none`: not finished). -/
def addAuxiliary (cdm : List Var) (coordSys : List CoordSys) : ℕ → List String → Option (List String)
  | 0, _ => none
  | fuel + 1, vars =>
    let r := pass cdm coordSys vars
    if r.2 = true then addAuxiliary cdm coordSys fuel r.1 else some r.1

/-! ## Specification -/

/-- What the variables `start` need: themselves, the coordinate variables of their dimensions, and the variables their
coordinate system depends on; and so on. -/
inductive Needed (cdm : List Var) (coordSys : List CoordSys) (start : List String) : String → Prop
  | self {v} : v ∈ start → Needed cdm coordSys start v
  | dim {v d s} : Needed cdm coordSys start v → (cdm.find? fun x => x.name == v) = some ⟨v, s⟩ → d ∈ s →
      (∃ w ∈ cdm, w.name = d) → Needed cdm coordSys start d
  | dep {v c d} : Needed cdm coordSys start v → (coordSys.find? fun c => c.completeFor v) = some c →
      d ∈ c.dependencies → Needed cdm coordSys start d

/-! ## Theorems -/

theorem insertAll_mem : ∀ (xs vars : List String) (b : Bool) (y : String),
    y ∈ (insertAll vars xs b).1 ↔ y ∈ vars ∨ y ∈ xs := by
  intro xs
  induction xs with
  | nil => intro vars b y; simp [insertAll]
  | cons x xs ih =>
    intro vars b y
    unfold insertAll
    by_cases h : x ∈ vars
    · rw [if_pos h, ih, List.mem_cons]
      constructor
      · tauto
      · rintro (h1 | rfl | h1)
        · exact Or.inl h1
        · exact Or.inl h
        · exact Or.inr h1
    · rw [if_neg h, ih, List.mem_append, List.mem_singleton, List.mem_cons]
      tauto

theorem insertAll_nodup : ∀ (xs vars : List String) (b : Bool), vars.Nodup → (insertAll vars xs b).1.Nodup := by
  intro xs
  induction xs with
  | nil => intro vars b h; exact h
  | cons x xs ih =>
    intro vars b h
    unfold insertAll
    by_cases hx : x ∈ vars
    · rw [if_pos hx]; exact ih vars b h
    · rw [if_neg hx]
      refine ih _ _ (List.nodup_append'.2 ⟨h, List.nodup_singleton x, ?_⟩)
      intro y hy hy'
      rw [List.mem_singleton] at hy'
      exact hx (hy' ▸ hy)

theorem insertAll_length : ∀ (xs vars : List String) (b : Bool),
    vars.length ≤ (insertAll vars xs b).1.length ∧
    ((insertAll vars xs b).2 = true → b = true ∨ vars.length < (insertAll vars xs b).1.length) ∧
    ((insertAll vars xs b).2 = false → b = false ∧ (insertAll vars xs b).1 = vars) := by
  intro xs
  induction xs with
  | nil => intro vars b; simp [insertAll]
  | cons x xs ih =>
    intro vars b
    unfold insertAll
    by_cases hx : x ∈ vars
    · rw [if_pos hx]; exact ih vars b
    · rw [if_neg hx]
      obtain ⟨h1, h2, h3⟩ := ih (vars ++ [x]) true
      rw [List.length_append, List.length_singleton] at h1
      refine ⟨by omega, fun _ => Or.inr (by omega), fun h => ?_⟩
      exact absurd (h3 h).1 (by simp)

theorem hasVariable_iff (cdm : List Var) (n : String) : hasVariable cdm n = true ↔ ∃ w ∈ cdm, w.name = n := by
  simp [hasVariable]

theorem find_of_has {cdm : List Var} {n : String} (h : hasVariable cdm n = true) :
    ∃ s, (cdm.find? fun v => v.name == n) = some ⟨n, s⟩ ∧ shapeOf cdm n = s := by
  have hs : (cdm.find? fun v => v.name == n).isSome := by
    rw [List.find?_isSome]
    obtain ⟨w, hw, he⟩ := (hasVariable_iff cdm n).1 h
    exact ⟨w, hw, by simp [he]⟩
  obtain ⟨v, hv⟩ := Option.isSome_iff_exists.1 hs
  have hn : v.name = n := by simpa using List.find?_some hv
  cases v with
  | mk nm s =>
    dsimp only at hn
    subst hn
    exact ⟨s, hv, by simp [shapeOf, hv]⟩

theorem mem_dimVars (cdm : List Var) (vars : List String) (d : String) :
    d ∈ dimVars cdm vars ↔ ∃ v ∈ vars, ∃ s, (cdm.find? fun x => x.name == v) = some ⟨v, s⟩ ∧ d ∈ s ∧
      ∃ w ∈ cdm, w.name = d := by
  unfold dimVars
  rw [List.mem_flatMap]
  constructor
  · rintro ⟨v, hv, h⟩
    by_cases hh : hasVariable cdm v = true
    · rw [if_pos hh, List.mem_filter] at h
      obtain ⟨s, hs, he⟩ := find_of_has hh
      exact ⟨v, hv, s, hs, he ▸ h.1, (hasVariable_iff cdm d).1 h.2⟩
    · rw [if_neg hh] at h; simp at h
  · rintro ⟨v, hv, s, hs, hd, hw⟩
    have hh : hasVariable cdm v = true :=
      (hasVariable_iff cdm v).2 ⟨⟨v, s⟩, List.mem_of_find?_eq_some hs, rfl⟩
    refine ⟨v, hv, ?_⟩
    rw [if_pos hh, List.mem_filter]
    refine ⟨?_, (hasVariable_iff cdm d).2 hw⟩
    simpa [shapeOf, hs] using hd

theorem mem_dependenciesOf (coordSys : List CoordSys) (v d : String) :
    d ∈ dependenciesOf coordSys v ↔ ∃ c, (coordSys.find? fun c => c.completeFor v) = some c ∧ d ∈ c.dependencies := by
  unfold dependenciesOf
  cases h : coordSys.find? fun c => c.completeFor v with
  | none => simp
  | some c => simp

/-- All names that can ever be in the set. -/
def universe_ (cdm : List Var) (coordSys : List CoordSys) (start : List String) : List String :=
  start ++ cdm.map (·.name) ++ coordSys.flatMap (·.dependencies)

theorem needed_in_universe {cdm : List Var} {coordSys : List CoordSys} {start : List String} {v : String}
    (h : Needed cdm coordSys start v) : v ∈ universe_ cdm coordSys start := by
  unfold universe_
  induction h with
  | self h => simp [h]
  | dim _ _ _ hw _ =>
    obtain ⟨w, hw, rfl⟩ := hw
    simp only [List.mem_append, List.mem_map]
    exact Or.inl (Or.inr ⟨w, hw, rfl⟩)
  | dep _ hc hd _ =>
    simp only [List.mem_append, List.mem_flatMap]
    exact Or.inr ⟨_, List.mem_of_find?_eq_some hc, hd⟩

theorem pass_spec {cdm : List Var} {coordSys : List CoordSys} {start vars : List String}
    (hn : vars.Nodup) (hneed : ∀ v ∈ vars, Needed cdm coordSys start v) :
    (pass cdm coordSys vars).1.Nodup ∧ (∀ v ∈ (pass cdm coordSys vars).1, Needed cdm coordSys start v) ∧
    (∀ v ∈ vars, v ∈ (pass cdm coordSys vars).1) ∧
    ((pass cdm coordSys vars).2 = true → vars.length < (pass cdm coordSys vars).1.length) ∧
    ((pass cdm coordSys vars).2 = false → (pass cdm coordSys vars).1 = vars ∧
      (∀ d ∈ dimVars cdm vars, d ∈ vars) ∧ (∀ v ∈ vars, ∀ d ∈ dependenciesOf coordSys v, d ∈ vars)) := by
  have n1 := insertAll_nodup (dimVars cdm vars) vars false hn
  have m1 := insertAll_mem (dimVars cdm vars) vars false
  obtain ⟨l1, t1, f1⟩ := insertAll_length (dimVars cdm vars) vars false
  unfold pass
  dsimp only
  set r1 := insertAll vars (dimVars cdm vars) false with hr1
  have m2 := insertAll_mem (r1.1.flatMap (dependenciesOf coordSys)) r1.1 r1.2
  obtain ⟨l2, t2, f2⟩ := insertAll_length (r1.1.flatMap (dependenciesOf coordSys)) r1.1 r1.2
  have need1 : ∀ v ∈ r1.1, Needed cdm coordSys start v := by
    intro v hv
    rcases (m1 v).1 hv with h | h
    · exact hneed v h
    · obtain ⟨w, hw, s, hs, hd, he⟩ := (mem_dimVars cdm vars v).1 h
      exact .dim (hneed w hw) hs hd he
  refine ⟨insertAll_nodup _ _ _ n1, ?_, ?_, ?_, ?_⟩
  · intro v hv
    rcases (m2 v).1 hv with h | h
    · exact need1 v h
    · obtain ⟨w, hw, hd⟩ := List.mem_flatMap.1 h
      obtain ⟨c, hc, hd⟩ := (mem_dependenciesOf coordSys w v).1 hd
      exact .dep (need1 w hw) hc hd
  · intro v hv
    exact (m2 v).2 (Or.inl ((m1 v).2 (Or.inl hv)))
  · intro h
    rcases t2 h with h | h
    · rcases t1 h with h | h
      · exact absurd h (by simp)
      · omega
    · omega
  · intro h
    obtain ⟨hb, e2⟩ := f2 h
    obtain ⟨_, e1⟩ := f1 hb
    refine ⟨by rw [e2, e1], ?_, ?_⟩
    · intro d hd
      rw [← e1]
      exact (m1 d).2 (Or.inr hd)
    · intro v hv d hd
      have : d ∈ (insertAll r1.1 (r1.1.flatMap (dependenciesOf coordSys)) r1.2).1 :=
        (m2 d).2 (Or.inr (List.mem_flatMap.2 ⟨v, by rw [e1]; exact hv, hd⟩))
      rw [e2, e1] at this
      exact this

theorem loop_spec (cdm : List Var) (coordSys : List CoordSys) (start : List String) : ∀ (fuel : ℕ) (vars : List String),
    vars.Nodup → (∀ v ∈ vars, Needed cdm coordSys start v) → (∀ v ∈ start, v ∈ vars) →
    (universe_ cdm coordSys start).length < fuel + vars.length →
    ∃ r, addAuxiliary cdm coordSys fuel vars = some r ∧ r.Nodup ∧ ∀ v, v ∈ r ↔ Needed cdm coordSys start v := by
  intro fuel
  induction fuel with
  | zero =>
    intro vars hn hneed _ hf
    have : vars.length ≤ (universe_ cdm coordSys start).length :=
      (List.subperm_of_subset hn fun v hv => needed_in_universe (hneed v hv)).length_le
    omega
  | succ fuel ih =>
    intro vars hn hneed hstart hf
    obtain ⟨p1, p2, p3, p4, p5⟩ := pass_spec hn hneed
    unfold addAuxiliary
    dsimp only
    cases hb : (pass cdm coordSys vars).2 with
    | true =>
      rw [if_pos rfl]
      have := p4 hb
      exact ih _ p1 p2 (fun v hv => p3 v (hstart v hv)) (by omega)
    | false =>
      rw [if_neg (by simp)]
      obtain ⟨e, c1, c2⟩ := p5 hb
      refine ⟨_, rfl, p1, fun v => ⟨p2 v, fun h => ?_⟩⟩
      rw [e]
      induction h with
      | self h => exact hstart _ h
      | dim _ hs hd hw ih' => exact c1 _ ((mem_dimVars _ _ _).2 ⟨_, ih', _, hs, hd, hw⟩)
      | dep _ hc hd ih' => exact c2 _ ih' _ ((mem_dependenciesOf _ _ _).2 ⟨_, hc, hd⟩)

/-- **C43.** The recursion ends, and the set then holds exactly the variables needed: the given ones, the coordinate
variables of the dimensions, the variables coordinate systems depend on, and what these need in turn. -/
theorem C43_auxiliary_closure (cdm : List Var) (coordSys : List CoordSys) (start : List String) (hn : start.Nodup)
    (fuel : ℕ) (hf : (universe_ cdm coordSys start).length < fuel) :
    ∃ r, addAuxiliary cdm coordSys fuel start = some r ∧ r.Nodup ∧ ∀ v, v ∈ r ↔ Needed cdm coordSys start v :=
  loop_spec cdm coordSys start fuel start hn (fun _ h => .self h) (fun _ h => h) (by omega)

/-- **C43.** A second call changes nothing. -/
theorem C43_idempotent (cdm : List Var) (coordSys : List CoordSys) (start r : List String) (hn : start.Nodup)
    (fuel : ℕ) (hf : (universe_ cdm coordSys start).length < fuel) (hr : addAuxiliary cdm coordSys fuel start = some r)
    (fuel' : ℕ) (hf' : (universe_ cdm coordSys r).length < fuel') :
    ∃ r', addAuxiliary cdm coordSys fuel' r = some r' ∧ ∀ v, v ∈ r' ↔ v ∈ r := by
  obtain ⟨r0, h0, hn0, hm0⟩ := C43_auxiliary_closure cdm coordSys start hn fuel hf
  rw [hr, Option.some.injEq] at h0
  subst h0
  obtain ⟨r', h', _, hm'⟩ := C43_auxiliary_closure cdm coordSys r hn0 fuel' hf'
  refine ⟨r', h', fun v => ?_⟩
  rw [hm' v]
  constructor
  · intro h
    rw [hm0]
    induction h with
    | self h => exact (hm0 _).1 h
    | dim _ hs hd hw ih => exact .dim ih hs hd hw
    | dep _ hc hd ih => exact .dep ih hc hd
  · intro h
    exact .self h

example : addAuxiliary
    [⟨"t2m", ["x", "y", "time"]⟩, ⟨"x", ["x"]⟩, ⟨"time", ["time"]⟩, ⟨"lon", ["x", "y"]⟩, ⟨"rot", []⟩, ⟨"other", ["z"]⟩]
    [⟨fun v => v == "t2m", ["lon", "proj"]⟩, ⟨fun v => v == "lon", ["rot"]⟩] 4 ["t2m"] =
    some ["t2m", "x", "time", "lon", "proj", "rot"] := by decide

end Fimex.Auxiliary
