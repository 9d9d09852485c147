import Verif.Netcdf.DataProps

/-!
# Cases of C91
-/

namespace Fimex.Netcdf

open Fimex.Cdm
open Fimex.Tables (DataType)

/-- Numbers are integers, nothing is converted. -/
def toyOps : Ops Int Int Unit where
  asType := fun _ d => .ok d.vals
  num := id
  differs := fun a b => a != b
  one := 1
  zero := 0
  text := fun _ => .ok "m"
  castFill := fun _ x => .ok x
  defaultFill := fun _ => -1
  getConverter := fun _ _ => .throws
  convert := fun _ _ _ _ _ _ _ _ _ => .throws
  parse := fun _ _ => .throws

/-- A library that refuses nothing; unwritten cells are -7. -/
def toyLib : Lib Int := ⟨fun _ _ => false, fun _ _ => -7⟩

/-- The dimensions x and time, the variables x(x) and t(x, time). -/
def toyDs : Ds Int where
  attrs := fun _ => none
  vars := [⟨"x", ["x"], ⟨.int, none⟩⟩, ⟨"t", ["x", "time"], ⟨.double, none⟩⟩]
  dims := [⟨"x", 2, false⟩, ⟨"time", 2, true⟩]
  coordsInitialized := false
  coordSystems := ()

def toySrc : Source Int where
  cdm := toyDs
  getData := fun n => if n = "x" then .ok (some ⟨.int, [10, 20]⟩) else .throws
  getDataSlice := fun n k => if n = "t" then .ok (some ⟨.double, [100 * k, 100 * k + 1]⟩) else .throws

def toyWriter : Writer Int := ⟨toyDs, fun _ => none, fun _ => none, fun _ => none, fun _ => none, fun _ => none⟩

/-- What the toy reader supplies. -/
def toySupply : Option Nat → Var (Payload Int) → Option (List Int)
  | none, _ => some [10, 20]
  | some k, _ => some [100 * k, 100 * k + 1]

theorem toyInv : Inv toyDs where
  vars := by decide +kernel
  dims := by decide +kernel
  attrNames := by intro n l h; cases h
  owners := by intro n h; exact absurd rfl h

theorem toyOne : OneUnlimited toyDs := by
  intro d e hd he h1 h2
  simp only [toyDs, List.mem_cons, List.not_mem_nil, or_false] at hd he
  rcases hd with rfl | rfl <;> rcases he with rfl | rfl <;> first | rfl | exact absurd h1 (by decide) | exact absurd h2 (by decide)

theorem toyKeys : KeysOf toyDs [] := ⟨List.nodup_nil, by simp [toyDs]⟩

theorem toyMeta (n : String) (hn : n = "x" ∨ n = "t") : HasMeta toyOps toyDs n ⟨"", -1, 1, 0⟩ := by
  rcases hn with rfl | rfl <;> refine ⟨?_, ?_, ?_, ?_⟩ <;> rfl

theorem toyConvert (v : Var (Payload Int)) (hv : v ∈ toyDs.vars) (d : Data Int) :
    convertData toyOps toyDs toyWriter v d = .ok d := by
  have hn : v.name = "x" ∨ v.name = "t" := by
    simp only [toyDs, List.mem_cons, List.not_mem_nil, or_false] at hv
    rcases hv with rfl | rfl
    · exact .inl rfl
    · exact .inr rfl
  exact C91_unchanged (toyMeta _ hn) (toyMeta _ hn) rfl rfl rfl rfl (.inl rfl)

theorem toySupplies (p : Option Nat) (v : Var (Payload Int)) (ds : List Dim) (hv : v ∈ toyDs.vars)
    (hdue : Due toyDs p v) (hds : DimsOf toyDs v.shape ds) :
    Supplies toyOps toySrc toyWriter .classic v p (ds.map cellsAlong).prod (toySupply p v) := by
  have hconv := toyConvert v hv
  simp only [toyDs, List.mem_cons, List.not_mem_nil, or_false] at hv
  rcases hv with rfl | rfl
  · cases hds with
    | cons h1 h2 =>
      cases h2
      have eh1 : getDimension toyDs "x" = .ok ⟨"x", 2, false⟩ := by decide +kernel
      rw [eh1] at h1
      cases h1
      have hp : p = none := by
        cases p with
        | none => rfl
        | some =>
          have : hasUnlimitedDim toyDs (⟨"x", ["x"], ⟨.int, none⟩⟩ : Var (Payload Int)) = false := by decide +kernel
          unfold Due at hdue
          rw [this] at hdue
          cases hdue
      subst hp
      refine ⟨by decide, some ⟨.int, [10, 20]⟩, some ⟨.int, [10, 20]⟩, rfl, hconv _, .inl ?_⟩
      exact ⟨_, [10, 20], rfl, by simp, rfl, rfl, rfl, rfl⟩
  · cases hds with
    | cons h1 h2 =>
      cases h2 with
      | cons h2 h3 =>
        cases h3
        have eh1 : getDimension toyDs "x" = .ok ⟨"x", 2, false⟩ := by decide +kernel
        rw [eh1] at h1
        cases h1
        have eh2 : getDimension toyDs "time" = .ok ⟨"time", 2, true⟩ := by decide +kernel
        rw [eh2] at h2
        cases h2
        obtain ⟨k, rfl⟩ : ∃ k, p = some k := by
          cases p with
          | none => exact absurd hdue (by unfold Due; decide +kernel)
          | some k => exact ⟨k, rfl⟩
        refine ⟨by decide, some ⟨.double, [100 * k, 100 * k + 1]⟩, some ⟨.double, [100 * k, 100 * k + 1]⟩, rfl, hconv _, .inl ?_⟩
        exact ⟨_, [100 * k, 100 * k + 1], rfl, by simp, rfl, rfl, rfl, rfl⟩

/-- The content of a file, for comparison. -/
def dump (r : Res (NcFile Int)) : List (String × Nat × Bool) × List (String × List Int) :=
  match r with
  | .ok f => (f.dims.map fun d => (d.name, d.len, d.unlimited),
      f.vars.map fun v => (v.name, [[0], [1], [0, 0], [0, 1], [1, 0], [1, 1], [2, 0]].map v.cells))
  | _ => ([], [])

/-- The hypotheses of C91 hold for the toy dataset, with the last position written first. -/
example : ∃ f0 ids f, define toyLib toyOps toyWriter [] .classic = .ok (f0, ids) ∧
    writeData toyLib toyOps toySrc toyWriter ids f0
      [.var (some 1) ⟨"t", ["x", "time"], ⟨.double, none⟩⟩, .var (some 1) ⟨"x", ["x"], ⟨.int, none⟩⟩, .sync,
        .var none ⟨"t", ["x", "time"], ⟨.double, none⟩⟩, .var none ⟨"x", ["x"], ⟨.int, none⟩⟩,
        .var (some 0) ⟨"x", ["x"], ⟨.int, none⟩⟩, .var (some 0) ⟨"t", ["x", "time"], ⟨.double, none⟩⟩, .sync] = .ok f ∧
    Complete toyLib toyOps toyWriter toySupply .classic f := by
  obtain ⟨⟨f0, ids⟩, hdef⟩ : ∃ r, define toyLib toyOps toyWriter [] .classic = .ok r := ⟨_, rfl⟩
  obtain ⟨f, hf, hc⟩ := C91_data_written_partial (s := toySupply) (src := toySrc) (steps :=
    [.var (some 1) ⟨"t", ["x", "time"], ⟨.double, none⟩⟩, .var (some 1) ⟨"x", ["x"], ⟨.int, none⟩⟩, .sync,
        .var none ⟨"t", ["x", "time"], ⟨.double, none⟩⟩, .var none ⟨"x", ["x"], ⟨.int, none⟩⟩,
        .var (some 0) ⟨"x", ["x"], ⟨.int, none⟩⟩, .var (some 0) ⟨"t", ["x", "time"], ⟨.double, none⟩⟩, .sync])
    ⟨fun _ _ _ _ => rfl, fun _ => rfl⟩ toyInv toyKeys (by decide +kernel) toyOne (fun _ _ _ => rfl)
    (by intro d hd
        simp only [toyWriter, toyDs, List.mem_cons, List.not_mem_nil, or_false] at hd
        rcases hd with rfl | rfl <;> decide)
    (by intro v hv
        simp only [toyWriter, toyDs, List.mem_cons, List.not_mem_nil, or_false] at hv
        rcases hv with rfl | rfl <;> decide +kernel)
    hdef
    (by intro p v
        have hpos : positions toyDs = [none, some 0, some 1] := by decide +kernel
        simp only [toyWriter, hpos]
        simp only [toyDs, List.mem_cons, List.not_mem_nil, or_false, Step.var.injEq, reduceCtorEq, false_or]
        tauto)
    (fun p v ds _ hv hdue hds => toySupplies p v ds hv hdue hds)
  exact ⟨f0, ids, f, hdef, hf, hc⟩

example : dump (write toyLib toyOps toySrc {} 3 (fun _ => []) sequential) =
    ([("x", 2, false), ("time", 2, true)],
      [("x", [10, 20, -7, -7, -7, -7, -7]), ("t", [-7, -7, 0, 1, 100, 101, -7])]) := by decide +kernel

/-- C91 is violated: values whose number differs from the size of the variable are left out and nothing
is reported. -/
theorem C91_wrong_size_is_silent :
    dump (write toyLib toyOps { toySrc with getData := fun _ => .ok (some ⟨.int, [10, 20, 30]⟩) } {} 3 (fun _ => []) sequential) =
    ([("x", 2, false), ("time", 2, true)],
      [("x", [-7, -7, -7, -7, -7, -7, -7]), ("t", [-7, -7, 0, 1, 100, 101, -7])]) := by decide +kernel

/-- C91 is violated: so are values the library refuses. -/
theorem C91_refused_is_silent :
    dump (write ⟨fun _ c => match c with
      | .put _ _ _ => true
      | _ => false, fun _ _ => -7⟩ toyOps toySrc {} 3 (fun _ => []) sequential) =
    ([("x", 2, false), ("time", 0, true)],
      [("x", [-7, -7, -7, -7, -7, -7, -7]), ("t", [-7, -7, -7, -7, -7, -7, -7])]) := by decide +kernel

/-- C91 is violated: with the names of two dimensions exchanged the data with the unlimited dimension is left
out and nothing is reported. -/
theorem C91_exchanged_names_are_silent :
    dump (write toyLib toyOps toySrc { dimNames := [("x", "time"), ("time", "x")] } 3 (fun _ => []) sequential) =
    ([("time", 2, false), ("x", 0, true)],
      [("time", [-7, -7, -7, -7, -7, -7, -7]), ("t", [-7, -7, -7, -7, -7, -7, -7])]) := by decide +kernel

end Fimex.Netcdf
