import Verif.Command.Runs

/-!
# C119: every other option has an effect

For each option that is asked for there is a set of options with which the program does something else if that option is left out.  The
same sets show that the hypotheses of the theorems are met.
-/

namespace Fimex.Command

open History (Act lift)
open Spec

/-- A small library: texts stand for themselves, numbers are lengths. -/
def toy : Env Nat String String where
  value vs := vs.headD ""
  int s := .ok s.length
  real s := .ok s.length
  bool s := .ok (s = "a")
  names s := [s]
  ints s := .ok [s.length]
  sizes s := .ok [if s = "" then 2 else 1]
  reals s := .ok [s.length]
  time s := some s
  minTime := "-"
  maxTime := "+"
  method s := if s = "a" then some 1 else none
  nearest := 0
  smoothing s := .ok s
  process s := .ok s
  config vs := .ok fun k => if k = "ncml.config" then vs else []
  accept _ := true
  gives _ := true

/-- All options but some are given. -/
def without (ks : List String) : Opts :=
  fun k => if ks.contains k then [] else if k = "process.rotateVector.direction" then ["grid"] else ["a"]

/-- The options to leave out so that the option is heard. -/
def silence : String → List String
  | "process.rotateVector.all" => ["process.rotateVector.x"]
  | "interpolate.template" => ["interpolate.projString"]
  | "interpolate.vcrossNames" => ["interpolate.projString", "interpolate.template"]
  | "interpolate.vcrossNoPoints" => ["interpolate.projString", "interpolate.template"]
  | "interpolate.latitudeValues" => ["interpolate.projString", "interpolate.template"]
  | "interpolate.longitudeValues" => ["interpolate.projString", "interpolate.template"]
  | "verticalInterpolate.templateVar" => ["verticalInterpolate.toAxis"]
  | "verticalInterpolate.level1" => ["verticalInterpolate.toAxis", "verticalInterpolate.templateVar"]
  | _ => []

/-- What the program does with the options, with and without the one. -/
def heard (k : String) : Bool := run toy 3 (without (silence k)) [] ≠ run toy 3 (Function.update (without (silence k)) k []) []

set_option maxRecDepth 100000 in
/-- C119: all options that are asked for can have an effect. -/
theorem C119_heard : ∀ k ∈ declared, k ∉ unread → ¬ ignored k := by
  have h : (declared.all fun k => unread.contains k || heard k) = true := by decide +kernel
  intro k hk hu hi
  have := List.all_eq_true.1 h k hk
  rw [Bool.or_eq_true] at this
  rcases this with c | c
  · exact hu (List.contains_iff_mem.1 c)
  · unfold heard at c
    rw [hi] at c
    simp at c

/-! ## Cases -/

/-- With all options given, the program comes to its end, with all readers and two files. -/
example : (run toy 3 (without []) []).2 = .ok () ∧ chain toy (without []) = [.processor, .quality, .extractor, .times, .interpolator, .ncml,
    .pressure, .vertical, .merger, .quality, .ncml] ∧ ((run toy 3 (without []) []).1.filter isFile).length = 2 := by decide +kernel

/-- A few options: variables of a time are written. -/
def few : Opts
  | "input.file" => ["in.nc"]
  | "output.file" => ["out.nc"]
  | "extract.selectVariables" => ["u", "v"]
  | "extract.reduceTime.start" => ["2026"]
  | _ => []

example : run toy 1 few [] = ([.write "" "out.nc" "" (.extractor [.time "2026" "+", .select ["u", "v"] true] (.file "" "in.nc" "" []))], .ok ()) := by
  decide +kernel

/-- The end of a time alone: the whole dataset is written. -/
def endOnly : Opts
  | "input.file" => ["in.nc"]
  | "output.file" => ["out.nc"]
  | "extract.reduceTime.end" => ["2026"]
  | _ => []

example : run toy 1 endOnly [] = ([.write "" "out.nc" "" (.file "" "in.nc" "" [])], .ok ()) := by decide +kernel

/-- Two cross sections. -/
def vcross : Opts
  | "interpolate.vcrossNames" => ["A,B"]
  | "interpolate.vcrossNoPoints" => ["2,1"]
  | "interpolate.latitudeValues" => ["60,61,62"]
  | "interpolate.longitudeValues" => ["10,11,12"]
  | _ => []

/-- A library that reads these. -/
def toyCross : Env Nat String String :=
  { toy with
    names := fun s => if s = "A,B" then ["A", "B"] else []
    sizes := fun s => if s = "2,1" then .ok [2, 1] else .throws
    reals := fun s => if s = "60,61,62" then .ok [60, 61, 62] else if s = "10,11,12" then .ok [10, 11, 12] else .throws }

example : target toyCross vcross = some (.ok (⟨none, none, none, none⟩, .sections [("A", [(10, 60), (11, 61)]), ("B", [(12, 62)])])) := by
  decide +kernel

/-- Interpolation without a method, and a merger with one. -/
example : (interpolator toyCross vcross (.file "" "in.nc" "" []) []).2 =
    .ok (.interpolator 0 ⟨none, none, none, none⟩ (.sections [("A", [(10, 60), (11, 61)]), ("B", [(12, 62)])]) (.file "" "in.nc" "" [])) := by decide +kernel

example : mergeReader toy (fun k => if k = "merge.method" then ["a"] else []) (.file "" "b.nc" "" []) (.file "" "a.nc" "" []) =
    .ok (.merger none false 1 none (.file "" "b.nc" "" []) (.file "" "a.nc" "" [])) := by decide +kernel

example : ∀ w l, toyCross.reals w = .ok l → l.length < 2 ^ 63 := by
  intro w l h
  change (if w = "60,61,62" then _ else if w = "10,11,12" then _ else _) = _ at h
  split at h
  · cases h; decide
  · split at h
    · cases h; decide
    · cases h

/-- Counts of more points than an `int` can hold are refused, although their sum seems to be right. -/
example : pointSum [2 ^ 32 + 3] = 3 ∧ cut [10, 11, 12] [60, 61, 62] 0 ["A"] [4] = .throws := by decide +kernel

/-- A box with three sides. -/
def threeSides : Opts
  | "extract.reduceToBoundingBox.south" => ["50"]
  | "extract.reduceToBoundingBox.north" => ["60"]
  | "extract.reduceToBoundingBox.west" => ["0"]
  | _ => []

example : Spec.badExtract toy threeSides ∧ (run toy 1 threeSides []).2 = .throws := by
  refine ⟨.inr (.inl ⟨"extract.reduceToBoundingBox.south", by simp, by simp [threeSides], "extract.reduceToBoundingBox.east", by simp, rfl⟩), ?_⟩
  decide +kernel

/-- A configuration of the inner dataset that names itself. -/
def itself : Opts
  | "merge.inner.file" => ["inner.nc"]
  | "merge.inner.cfg" => ["fimex.cfg"]
  | _ => []

example : ∀ depth (l l' : Log Nat String String) (r r' : Reader Nat String String),
    tasks { toy with config := fun _ => .ok itself } depth itself r l ≠ (l', .ok r') := by
  intro depth l l' r r'
  refine C119_endless _ (fun o => o = itself) ?_ depth itself rfl r r' l l'
  rintro o rfl
  refine ⟨by decide, by simp [itself], ?_⟩
  intro m hm
  cases hm
  rfl

/-- A start without an end. -/
def startOnly : Opts
  | "extract.reduceDimension.name" => ["time"]
  | "extract.reduceDimension.start" => ["12"]
  | _ => []

example : (run toy 1 startOnly []).2 = .ub := by decide +kernel

end Fimex.Command
