import Verif.Command.Lemmas
import Mathlib.Logic.Function.Basic

/-!
# C119: the options of the program and the readers it builds

Specification, apart from the model:

* `Spec.declared`: the options the program takes (src/binSrc/fimex.cc:903-1025), and `ignored` options: those without any effect;
* `Spec.chain`: which readers are put on the input, in which order;
* `Spec.extracts`, `Spec.processes`, `Spec.aims`: what is asked for by the options, operation by operation;
* cross sections: the points of all sections together are the points given.
-/

namespace Fimex.Command

open History (Act lift modify andThen)

variable {R T P : Type}

namespace Spec

/-- src/binSrc/fimex.cc:903-1025: the options the program takes, on its command line and in files. -/
def declared : List String :=
  ["input.file", "input.type", "input.config", "input.optional", "input.printNcML", "input.printCS", "input.printSize",
   "output.file", "output.fillFile", "output.type", "output.config", "output.printNcML", "output.printCS", "output.printSize",
   "process.accumulateVariable", "process.deaccumulateVariable", "process.rotateVector.direction", "process.rotateVector.angle",
   "process.rotateVector.x", "process.rotateVector.stdNameX", "process.rotateVector.y", "process.rotateVector.stdNameY",
   "process.rotateVector.all", "process.addVerticalVelocity", "process.addGeopotentialHeight", "process.printNcML",
   "process.printCS", "process.printSize", "extract.removeVariable", "extract.selectVariables",
   "extract.selectVariables.noAuxiliary", "extract.reduceDimension.name", "extract.reduceDimension.start",
   "extract.reduceDimension.end", "extract.pickDimension.name", "extract.pickDimension.list", "extract.reduceTime.start",
   "extract.reduceTime.end", "extract.reduceVerticalAxis.unit", "extract.reduceVerticalAxis.start",
   "extract.reduceVerticalAxis.end", "extract.reduceToBoundingBox.south", "extract.reduceToBoundingBox.north",
   "extract.reduceToBoundingBox.east", "extract.reduceToBoundingBox.west", "extract.printNcML", "extract.printCS",
   "extract.printSize", "qualityExtract.autoConfString", "qualityExtract.config", "qualityExtract.printNcML",
   "qualityExtract.printCS", "qualityExtract.printSize", "interpolate.projString", "interpolate.method", "interpolate.xAxisValues",
   "interpolate.yAxisValues", "interpolate.xAxisUnit", "interpolate.yAxisUnit", "interpolate.xAxisType", "interpolate.yAxisType",
   "interpolate.distanceOfInterest", "interpolate.latitudeName", "interpolate.longitudeName", "interpolate.preprocess",
   "interpolate.postprocess", "interpolate.latitudeValues", "interpolate.longitudeValues", "interpolate.vcrossNames",
   "interpolate.vcrossNoPoints", "interpolate.template", "interpolate.printNcML", "interpolate.printCS", "interpolate.printSize",
   "merge.inner.file", "merge.inner.type", "merge.inner.config", "merge.inner.cfg", "merge.smoothing", "merge.keepOuterVariables",
   "merge.method", "merge.projString", "merge.xAxisValues", "merge.yAxisValues", "merge.xAxisUnit", "merge.yAxisUnit",
   "merge.xAxisType", "merge.yAxisType", "merge.printNcML", "merge.printCS", "merge.printSize", "verticalInterpolate.config",
   "verticalInterpolate.type", "verticalInterpolate.ignoreValidityMin", "verticalInterpolate.ignoreValidityMax",
   "verticalInterpolate.method", "verticalInterpolate.templateVar", "verticalInterpolate.toAxis", "verticalInterpolate.level1",
   "verticalInterpolate.level2", "verticalInterpolate.dataConversion", "verticalInterpolate.printNcML",
   "verticalInterpolate.printCS", "verticalInterpolate.printSize", "timeInterpolate.timeSpec", "timeInterpolate.printNcML",
   "timeInterpolate.printCS", "timeInterpolate.printSize", "qualityExtract2.autoConfString", "qualityExtract2.config",
   "qualityExtract2.printNcML", "qualityExtract2.printCS", "qualityExtract2.printSize", "ncml.config", "ncml.printNcML",
   "ncml.printCS", "ncml.printSize"]

/-- An option has no effect: the program does the same whatever is given for it. -/
def ignored (k : String) : Prop :=
  ∀ (R T P : Type) (env : Env R T P) (depth : Nat) (o : Opts) (vs : List String),
    run env depth (Function.update o k vs) = run env depth o

/-! ## The chain of readers -/

/-- Kinds of readers. -/
inductive Layer where
  | processor
  | quality
  | extractor
  | times
  | interpolator
  | ncml
  | pressure
  | vertical
  | merger
deriving DecidableEq

/-- The readers on the input, the first one put on it first; through a merger the outer dataset is followed. -/
def layers : Reader R T P → List Layer
  | .file .. => []
  | .processor _ r => layers r ++ [.processor]
  | .quality _ _ r => layers r ++ [.quality]
  | .extractor _ r => layers r ++ [.extractor]
  | .times _ r => layers r ++ [.times]
  | .interpolator _ _ _ r => layers r ++ [.interpolator]
  | .ncml _ r => layers r ++ [.ncml]
  | .pressure _ r => layers r ++ [.pressure]
  | .vertical _ _ _ _ _ r => layers r ++ [.vertical]
  | .merger _ _ _ _ _ r => layers r ++ [.merger]

/-- The input itself. -/
def input : Reader R T P → Reader R T P
  | .file t n c o => .file t n c o
  | .processor _ r => input r
  | .quality _ _ r => input r
  | .extractor _ r => input r
  | .times _ r => input r
  | .interpolator _ _ _ r => input r
  | .ncml _ r => input r
  | .pressure _ r => input r
  | .vertical _ _ _ _ _ r => input r
  | .merger _ _ _ _ _ r => input r

/-- One of the options is given. -/
def some' (o : Opts) (ks : List String) : Bool := ks.any fun k => o k ≠ []

/-- A text that is not empty is given. -/
def worded (env : Env R T P) (o : Opts) (k : String) : Bool := o k ≠ [] ∧ env.value (o k) ≠ ""

/-- The readers, in the order they are put on the input, and when. -/
def stages (env : Env R T P) (o : Opts) : List (Layer × Bool) :=
  [(.processor, some' o ["process.accumulateVariable", "process.deaccumulateVariable", "process.rotateVector.direction",
     "process.addVerticalVelocity", "process.addGeopotentialHeight"]),
   (.quality, worded env o "qualityExtract.autoConfigString" || worded env o "qualityExtract.config"),
   (.extractor, some' o ["extract.reduceDimension.name", "extract.pickDimension.name", "extract.removeVariable",
     "extract.selectVariables", "extract.reduceTime.start", "extract.reduceVerticalAxis.unit", "extract.reduceToBoundingBox.south",
     "extract.reduceToBoundingBox.north", "extract.reduceToBoundingBox.west", "extract.reduceToBoundingBox.east"]),
   (.times, some' o ["timeInterpolate.timeSpec"]),
   (.interpolator, some' o ["interpolate.projString", "interpolate.template", "interpolate.vcrossNames", "interpolate.latitudeValues"]),
   (.ncml, worded env o "verticalInterpolate.config"),
   (.pressure, some' o ["verticalInterpolate.dataConversion"]),
   (.vertical, some' o ["verticalInterpolate.type"] && some' o ["verticalInterpolate.method"]),
   (.merger, some' o ["merge.inner.file", "merge.inner.type", "merge.inner.config", "merge.smoothing", "merge.method"]),
   (.quality, worded env o "qualityExtract2.autoConfigString" || worded env o "qualityExtract2.config"),
   (.ncml, worded env o "ncml.config")]

/-- The readers that are put on the input. -/
def chain (env : Env R T P) (o : Opts) : List Layer := ((stages env o).filter (·.2)).map (·.1)

/-! ## What is asked for -/

/-- The `i`-th value given for the option is the number. -/
def number (env : Env R T P) (o : Opts) (k : String) (i : Nat) (z : Int) : Prop := ∃ s, (o k)[i]? = some s ∧ env.int s = .ok z

/-- What is given for the option is the number. -/
def measure (env : Env R T P) (o : Opts) (k : String) (x : R) : Prop := o k ≠ [] ∧ env.real (env.value (o k)) = .ok x

/-- The limit of the time: what is given, or otherwise. -/
def bound (env : Env R T P) (o : Opts) (k : String) (otherwise t : T) : Prop :=
  (o k ≠ [] ∧ env.time (env.value (o k)) = some t) ∨ (o k = [] ∧ t = otherwise)

/-- The operations of the extractor the options ask for. -/
def extracts (env : Env R T P) (o : Opts) : ExtrOp R T → Prop
  | .first n => ∃ i, (o "extract.reduceDimension.name")[i]? = some n ∧ number env o "extract.reduceDimension.start" i 0 ∧
      number env o "extract.reduceDimension.end" i 0
  | .range n s e => ∃ i, (o "extract.reduceDimension.name")[i]? = some n ∧ number env o "extract.reduceDimension.start" i s ∧
      number env o "extract.reduceDimension.end" i e ∧ ¬(s = 0 ∧ e = 0)
  | .pick n ps => ∃ (i : Nat) (l : String) (zs : List Int), (o "extract.pickDimension.name")[i]? = some n ∧ (o "extract.pickDimension.list")[i]? = some l ∧
      env.ints l = .ok zs ∧ ps = zs.map Extractor.toSizeT
  | .time s e => (o "extract.reduceTime.start" ≠ [] ∨ o "extract.reduceTime.end" ≠ []) ∧
      bound env o "extract.reduceTime.start" env.minTime s ∧ bound env o "extract.reduceTime.end" env.maxTime e
  | .vertical u s e => o "extract.reduceVerticalAxis.unit" ≠ [] ∧ u = env.value (o "extract.reduceVerticalAxis.unit") ∧
      measure env o "extract.reduceVerticalAxis.start" s ∧ measure env o "extract.reduceVerticalAxis.end" e
  | .box s n w e => measure env o "extract.reduceToBoundingBox.south" s ∧ measure env o "extract.reduceToBoundingBox.north" n ∧
      measure env o "extract.reduceToBoundingBox.west" w ∧ measure env o "extract.reduceToBoundingBox.east" e
  | .select vs aux => vs = o "extract.selectVariables" ∧ vs ≠ [] ∧ (aux = true ↔ o "extract.selectVariables.noAuxiliary" = [])
  | .remove v => v ∈ o "extract.removeVariable"

/-- The order of the operations of the extractor: dimensions first, variables last. -/
def extractRank : ExtrOp R T → Nat
  | .first _ => 0
  | .range _ _ _ => 0
  | .pick _ _ => 1
  | .time _ _ => 2
  | .vertical _ _ _ => 3
  | .box _ _ _ _ => 4
  | .select _ _ => 5
  | .remove _ => 6

/-- The direction the option asks for. -/
def towards (env : Env R T P) (o : Opts) (d : Bool) : Prop :=
  o "process.rotateVector.direction" ≠ [] ∧ env.value (o "process.rotateVector.direction") = if d then "latlon" else "grid"

/-- The operations of the processor the options ask for. -/
def processes (env : Env R T P) (o : Opts) : ProcOp → Prop
  | .deaccumulate v => v ∈ o "process.deaccumulateVariable"
  | .accumulate v => v ∈ o "process.accumulateVariable"
  | .rotate d x y sx sy => towards env o d ∧ x = o "process.rotateVector.x" ∧ x ≠ [] ∧ y = o "process.rotateVector.y" ∧ y ≠ [] ∧
      sx = o "process.rotateVector.stdNameX" ∧ sy = o "process.rotateVector.stdNameY"
  | .rotateAll d => towards env o d ∧ o "process.rotateVector.all" ≠ [] ∧ (o "process.rotateVector.x" = [] ∨ o "process.rotateVector.y" = [])
  | .rotateAngles d vs => towards env o d ∧ vs = o "process.rotateVector.angle" ∧ vs ≠ []
  | .verticalVelocity => o "process.addVerticalVelocity" ≠ []
  | .geopotentialHeight => o "process.addGeopotentialHeight" ≠ []

/-- The order of the operations of the processor. -/
def processRank : ProcOp → Nat
  | .deaccumulate _ => 0
  | .accumulate _ => 1
  | .rotate .. => 2
  | .rotateAll _ => 2
  | .rotateAngles _ _ => 3
  | .verticalVelocity => 4
  | .geopotentialHeight => 5

/-- The new grid the options ask for: a projection goes before a template, a template before cross sections, these before points. -/
def aims (env : Env R T P) (o : Opts) : Target R → Prop
  | .projection p x y ux uy tx ty d =>
      (o "interpolate.projString" ≠ [] ∧ p = env.value (o "interpolate.projString")) ∧
      (o "interpolate.xAxisValues" ≠ [] ∧ x = env.value (o "interpolate.xAxisValues")) ∧
      (o "interpolate.yAxisValues" ≠ [] ∧ y = env.value (o "interpolate.yAxisValues")) ∧
      (o "interpolate.xAxisUnit" ≠ [] ∧ ux = env.value (o "interpolate.xAxisUnit")) ∧
      (o "interpolate.yAxisUnit" ≠ [] ∧ uy = env.value (o "interpolate.yAxisUnit")) ∧
      (o "interpolate.xAxisType" ≠ [] ∧ tx = env.value (o "interpolate.xAxisType") ∨ o "interpolate.xAxisType" = [] ∧ tx = "double") ∧
      (o "interpolate.yAxisType" ≠ [] ∧ ty = env.value (o "interpolate.yAxisType") ∨ o "interpolate.yAxisType" = [] ∧ ty = "double") ∧
      (∀ x, d = some x ↔ measure env o "interpolate.distanceOfInterest" x)
  | .template f => o "interpolate.projString" = [] ∧ o "interpolate.template" ≠ [] ∧ f = env.value (o "interpolate.template")
  | .sections csd => o "interpolate.projString" = [] ∧ o "interpolate.template" = [] ∧ o "interpolate.vcrossNames" ≠ [] ∧
      ∃ lon lat counts, env.reals (env.value (o "interpolate.longitudeValues")) = .ok lon ∧
        env.reals (env.value (o "interpolate.latitudeValues")) = .ok lat ∧ env.sizes (env.value (o "interpolate.vcrossNoPoints")) = .ok counts ∧
        lon.length = lat.length ∧ csd.map (·.1) = env.names (env.value (o "interpolate.vcrossNames")) ∧
        csd.map (·.2.length) = counts ∧ (csd.map (·.2)).flatten = lon.zip lat
  | .points lon lat => o "interpolate.projString" = [] ∧ o "interpolate.template" = [] ∧ o "interpolate.vcrossNames" = [] ∧
      (o "interpolate.latitudeValues" ≠ [] ∧ env.reals (env.value (o "interpolate.latitudeValues")) = .ok lat) ∧
      (o "interpolate.longitudeValues" ≠ [] ∧ env.reals (env.value (o "interpolate.longitudeValues")) = .ok lon)

end Spec

open Spec

/-! ## Options without effect -/

/-- The options the program takes but never asks for. -/
def unread : List String := declared.filter fun k => !readKeys.contains k

/-- These six options of the 117 are taken and never asked for. -/
theorem C119_unread : unread = ["process.printNcML", "process.printCS", "process.printSize", "qualityExtract.autoConfString",
    "verticalInterpolate.level2", "qualityExtract2.autoConfString"] := by decide +kernel

/-- C119: whatever is given for one of them, the program does the same. -/
theorem C119_ignored : ∀ k ∈ unread, ignored k := by
  intro k hk R T P env depth o vs
  have hk : readKeys.contains k = false := by
    have := (List.mem_filter.1 hk).2
    simpa using this
  apply run_congr
  intro k' hk'
  have : k' ≠ k := by
    rintro rfl
    have : readKeys.contains k' = true := List.contains_iff_mem.2 hk'
    rw [this] at hk; cases hk
  exact Function.update_of_ne this _ _

/-! ## The chain -/

theorem set_iff (o : Opts) (k : String) : isSet o k = true ↔ o k ≠ [] := by
  unfold isSet
  cases o k <;> simp

theorem set_not (o : Opts) (k : String) : isSet o k = false ↔ o k = [] := by
  unfold isSet
  cases o k <;> simp

theorem worded_iff (env : Env R T P) (o : Opts) (k : String) : text env o k ≠ "" ↔ worded env o k = true := by
  unfold text worded
  by_cases h : o k = []
  · rw [if_neg (by rw [set_iff]; exact fun c => c h)]; simp [h]
  · rw [if_pos ((set_iff o k).2 h)]; simp [h]

theorem any_set (o : Opts) (ks : List String) : some' o ks = ks.any fun k => isSet o k := by
  unfold some' isSet
  congr 1
  funext k
  cases o k <;> simp

/-- What a stage does: the input is the same, and there is one reader more if there is reason for it. -/
def Puts (x : List Layer) (r r' : Reader R T P) : Prop := input r' = input r ∧ layers r' = layers r ++ x

theorem Puts.trans {x y : List Layer} {a b c : Reader R T P} (h : Puts x a b) (h' : Puts y b c) : Puts (x ++ y) a c := by
  obtain ⟨h1, h2⟩ := h
  obtain ⟨h3, h4⟩ := h'
  exact ⟨h3.trans h1, by rw [h4, h2, List.append_assoc]⟩

theorem Puts.none (r : Reader R T P) : Puts [] r r := ⟨rfl, (List.append_nil _).symm⟩

/-- The stage is there or not. -/
def when (l : Layer) (b : Bool) : List Layer := (([(l, b)] : List (Layer × Bool)).filter (·.2)).map (·.1)

theorem when_true (l : Layer) : when l true = [l] := rfl
theorem when_false (l : Layer) : when l false = [] := rfl

theorem processor_puts {env : Env R T P} {o : Opts} {r r' : Reader R T P} (h : processor env o r = .ok r') :
    Puts (when .processor (some' o ["process.accumulateVariable", "process.deaccumulateVariable", "process.rotateVector.direction",
     "process.addVerticalVelocity", "process.addGeopotentialHeight"])) r r' := by
  have e : some' o ["process.accumulateVariable", "process.deaccumulateVariable", "process.rotateVector.direction",
     "process.addVerticalVelocity", "process.addGeopotentialHeight"] = wantsProcessor o := by
    rw [any_set]; simp [wantsProcessor, Bool.or_assoc]
  rw [e]
  unfold processor at h
  cases hw : wantsProcessor o with
  | true =>
    rw [hw, if_pos rfl] at h
    obtain ⟨ops, -, h⟩ := res_bind h
    obtain ⟨rfl, -⟩ := made_ok h
    exact ⟨rfl, rfl⟩
  | false =>
    rw [hw, if_neg (by decide)] at h
    cases h
    exact Puts.none _

theorem quality_puts {env : Env R T P} {o : Opts} {io : String} {r r' : Reader R T P} {l l' : Log R T P}
    (h : quality env o io r l = (l', .ok r')) :
    Puts (when .quality (worded env o (io ++ ".autoConfigString") || worded env o (io ++ ".config"))) r r' := by
  obtain ⟨h, -⟩ := returned h
  unfold qualityReader at h
  cases hw : (worded env o (io ++ ".autoConfigString") || worded env o (io ++ ".config")) with
  | true =>
    rw [if_pos (by rw [worded_iff, worded_iff]; simpa using hw)] at h
    obtain ⟨rfl, -⟩ := made_ok h
    exact ⟨rfl, rfl⟩
  | false =>
    rw [if_neg (by rw [worded_iff, worded_iff]; simpa using hw)] at h
    cases h
    exact Puts.none _

theorem extractor_puts {env : Env R T P} {o : Opts} {r r' : Reader R T P} {l l' : Log R T P} (h : extractor env o r l = (l', .ok r')) :
    Puts (when .extractor (some' o ["extract.reduceDimension.name", "extract.pickDimension.name", "extract.removeVariable",
     "extract.selectVariables", "extract.reduceTime.start", "extract.reduceVerticalAxis.unit", "extract.reduceToBoundingBox.south",
     "extract.reduceToBoundingBox.north", "extract.reduceToBoundingBox.west", "extract.reduceToBoundingBox.east"])) r r' := by
  have e : some' o ["extract.reduceDimension.name", "extract.pickDimension.name", "extract.removeVariable",
     "extract.selectVariables", "extract.reduceTime.start", "extract.reduceVerticalAxis.unit", "extract.reduceToBoundingBox.south",
     "extract.reduceToBoundingBox.north", "extract.reduceToBoundingBox.west", "extract.reduceToBoundingBox.east"] = wantsExtractor o := by
    rw [any_set]
    simp only [wantsExtractor, List.any_cons, List.any_nil, Bool.or_false, Bool.or_assoc, Bool.or_self_left]
  rw [e]
  unfold extractor at h
  cases hw : wantsExtractor o with
  | true =>
    rw [hw, if_pos rfl] at h
    obtain ⟨h, -⟩ := returned h
    obtain ⟨ops, -, h⟩ := res_bind h
    obtain ⟨rfl, -⟩ := made_ok h
    exact ⟨rfl, rfl⟩
  | false =>
    rw [hw, if_neg (by decide)] at h
    obtain ⟨rfl, -⟩ := pure_ok h
    exact Puts.none _

theorem times_puts {env : Env R T P} {o : Opts} {r r' : Reader R T P} {l l' : Log R T P} (h : times env o r l = (l', .ok r')) :
    Puts (when .times (some' o ["timeInterpolate.timeSpec"])) r r' := by
  rw [any_set]
  unfold times at h
  cases hw : isSet o "timeInterpolate.timeSpec" with
  | true =>
    rw [hw, if_pos rfl] at h
    obtain ⟨h, -⟩ := returned h
    obtain ⟨rfl, -⟩ := made_ok h
    simp only [List.any_cons, List.any_nil, hw]
    exact ⟨rfl, rfl⟩
  | false =>
    rw [hw, if_neg (by decide)] at h
    obtain ⟨rfl, -⟩ := pure_ok h
    simp only [List.any_cons, List.any_nil, hw]
    exact Puts.none _

theorem target_isSome (env : Env R T P) (o : Opts) : (target env o).isSome =
    some' o ["interpolate.projString", "interpolate.template", "interpolate.vcrossNames", "interpolate.latitudeValues"] := by
  rw [any_set]
  unfold target
  simp only [List.any_cons, List.any_nil, Bool.or_false]
  cases isSet o "interpolate.projString" <;> cases isSet o "interpolate.template" <;> cases isSet o "interpolate.vcrossNames" <;>
    cases isSet o "interpolate.latitudeValues" <;> rfl

theorem interpolator_puts {env : Env R T P} {o : Opts} {r r' : Reader R T P} {l l' : Log R T P}
    (h : interpolator env o r l = (l', .ok r')) :
    Puts (when .interpolator
      (some' o ["interpolate.projString", "interpolate.template", "interpolate.vcrossNames", "interpolate.latitudeValues"])) r r' := by
  rw [← target_isSome env]
  unfold interpolator at h
  cases ht : target env o with
  | none =>
    rw [ht] at h
    obtain ⟨rfl, -⟩ := pure_ok h
    exact Puts.none _
  | some t =>
    rw [ht] at h
    obtain ⟨h, -⟩ := returned h
    obtain ⟨st, -, h⟩ := res_bind h
    obtain ⟨rfl, -⟩ := made_ok h
    exact ⟨rfl, rfl⟩

theorem verticalNcml_puts {env : Env R T P} {o : Opts} {r r' : Reader R T P} (h : verticalNcml env o r = .ok r') :
    Puts (when .ncml (worded env o "verticalInterpolate.config")) r r' := by
  unfold verticalNcml at h
  cases hw : worded env o "verticalInterpolate.config" with
  | true =>
    rw [if_pos ((worded_iff _ _ _).2 hw)] at h
    obtain ⟨rfl, -⟩ := made_ok h
    exact ⟨rfl, rfl⟩
  | false =>
    rw [if_neg (by rw [worded_iff, hw]; decide)] at h
    cases h
    exact Puts.none _

theorem conversions_puts {env : Env R T P} {o : Opts} {r r' : Reader R T P} (h : conversions env o r = .ok r') :
    Puts (when .pressure (some' o ["verticalInterpolate.dataConversion"])) r r' := by
  rw [any_set]
  unfold conversions at h
  simp only [List.any_cons, List.any_nil, Bool.or_false]
  cases hw : isSet o "verticalInterpolate.dataConversion" with
  | true =>
    rw [hw, if_pos rfl] at h
    obtain ⟨rfl, -⟩ := made_ok h
    exact ⟨rfl, rfl⟩
  | false =>
    rw [hw, if_neg (by decide)] at h
    cases h
    exact Puts.none _

theorem vertical_puts {env : Env R T P} {o : Opts} {r r' : Reader R T P} {l l' : Log R T P} (h : vertical env o r l = (l', .ok r')) :
    Puts (when .ncml (worded env o "verticalInterpolate.config") ++ (when .pressure (some' o ["verticalInterpolate.dataConversion"]) ++
      when .vertical (some' o ["verticalInterpolate.type"] && some' o ["verticalInterpolate.method"]))) r r' := by
  obtain ⟨l1, c, h1, h2⟩ := bind_ok h
  obtain ⟨h3, rfl⟩ := lift_ok h1
  obtain ⟨n, hn, hc⟩ := res_bind h3
  refine (verticalNcml_puts hn).trans ((conversions_puts hc).trans ?_)
  rw [any_set, any_set]
  simp only [List.any_cons, List.any_nil, Bool.or_false]
  cases hw : (isSet o "verticalInterpolate.type" && isSet o "verticalInterpolate.method") with
  | true =>
    rw [hw, if_pos rfl] at h2
    obtain ⟨h2, -⟩ := returned h2
    obtain ⟨lv, -, h2⟩ := res_bind h2
    obtain ⟨mn, -, h2⟩ := res_bind h2
    obtain ⟨mx, -, h2⟩ := res_bind h2
    obtain ⟨rfl, -⟩ := made_ok h2
    exact ⟨rfl, rfl⟩
  | false =>
    rw [hw, if_neg (by decide)] at h2
    obtain ⟨rfl, -⟩ := pure_ok h2
    exact Puts.none _

theorem merger_puts {env : Env R T P} {again : Opts → Reader R T P → Act (Log R T P) (Reader R T P)} {o : Opts} {r r' : Reader R T P}
    {l l' : Log R T P} (h : merger env again o r l = (l', .ok r')) :
    Puts (when .merger (some' o ["merge.inner.file", "merge.inner.type", "merge.inner.config", "merge.smoothing", "merge.method"])) r r' := by
  have e : some' o ["merge.inner.file", "merge.inner.type", "merge.inner.config", "merge.smoothing", "merge.method"] = wantsMerger o := by
    rw [any_set]; simp only [wantsMerger, List.any_cons, List.any_nil, Bool.or_false, Bool.or_assoc]
  rw [e]
  unfold merger at h
  cases hw : wantsMerger o with
  | true =>
    rw [hw, if_pos rfl] at h
    obtain ⟨l1, i, -, h⟩ := bind_ok h
    obtain ⟨l2, j, -, h⟩ := bind_ok h
    obtain ⟨h, -⟩ := returned h
    obtain ⟨s, -, h⟩ := res_bind h
    obtain ⟨g, -, h⟩ := res_bind h
    obtain ⟨rfl, -⟩ := made_ok h
    exact ⟨rfl, rfl⟩
  | false =>
    rw [hw, if_neg (by decide)] at h
    obtain ⟨rfl, -⟩ := pure_ok h
    exact Puts.none _

theorem ncml_puts {env : Env R T P} {o : Opts} {r r' : Reader R T P} {l l' : Log R T P} (h : ncml env o r l = (l', .ok r')) :
    Puts (when .ncml (worded env o "ncml.config")) r r' := by
  unfold ncml at h
  cases hw : worded env o "ncml.config" with
  | true =>
    rw [if_pos ((worded_iff _ _ _).2 hw)] at h
    obtain ⟨h, -⟩ := returned h
    obtain ⟨rfl, -⟩ := made_ok h
    exact ⟨rfl, rfl⟩
  | false =>
    rw [if_neg (by rw [worded_iff, hw]; decide)] at h
    obtain ⟨rfl, -⟩ := pure_ok h
    exact Puts.none _

/-- What is put on the input, stage by stage. -/
theorem chain_eq (env : Env R T P) (o : Opts) : chain env o =
    when .processor (some' o ["process.accumulateVariable", "process.deaccumulateVariable", "process.rotateVector.direction",
     "process.addVerticalVelocity", "process.addGeopotentialHeight"]) ++
    (when .quality (worded env o ("qualityExtract" ++ ".autoConfigString") || worded env o ("qualityExtract" ++ ".config")) ++
    (when .extractor (some' o ["extract.reduceDimension.name", "extract.pickDimension.name", "extract.removeVariable",
     "extract.selectVariables", "extract.reduceTime.start", "extract.reduceVerticalAxis.unit", "extract.reduceToBoundingBox.south",
     "extract.reduceToBoundingBox.north", "extract.reduceToBoundingBox.west", "extract.reduceToBoundingBox.east"]) ++
    (when .times (some' o ["timeInterpolate.timeSpec"]) ++
    (when .interpolator
      (some' o ["interpolate.projString", "interpolate.template", "interpolate.vcrossNames", "interpolate.latitudeValues"]) ++
    ((when .ncml (worded env o "verticalInterpolate.config") ++ (when .pressure (some' o ["verticalInterpolate.dataConversion"]) ++
      when .vertical (some' o ["verticalInterpolate.type"] && some' o ["verticalInterpolate.method"]))) ++
    (when .merger (some' o ["merge.inner.file", "merge.inner.type", "merge.inner.config", "merge.smoothing", "merge.method"]) ++
    (when .quality (worded env o ("qualityExtract2" ++ ".autoConfigString") || worded env o ("qualityExtract2" ++ ".config")) ++
     when .ncml (worded env o "ncml.config")))))))) := by
  simp only [chain, stages, when, ← List.map_append, ← List.filter_append, List.cons_append, List.nil_append]
  rfl

/-- C119: the readers on the input are those the options ask for, each one once, in the order of `Spec.stages`. -/
theorem C119_chain {env : Env R T P} {depth : Nat} {o : Opts} {r r' : Reader R T P} {l l' : Log R T P}
    (h : tasks env depth o r l = (l', .ok r')) : input r' = input r ∧ layers r' = layers r ++ chain env o := by
  cases depth with
  | zero => cases h
  | succ d =>
    obtain ⟨l1, r1, h1, h⟩ := bind_ok h
    obtain ⟨h1, -⟩ := lift_ok h1
    obtain ⟨l2, r2, h2, h⟩ := bind_ok h
    obtain ⟨l3, r3, h3, h⟩ := bind_ok h
    obtain ⟨l4, r4, h4, h⟩ := bind_ok h
    obtain ⟨l5, r5, h5, h⟩ := bind_ok h
    obtain ⟨l6, r6, h6, h⟩ := bind_ok h
    obtain ⟨l7, r7, h7, h⟩ := bind_ok h
    obtain ⟨l8, r8, h8, h⟩ := bind_ok h
    have := (processor_puts h1).trans ((quality_puts h2).trans ((extractor_puts h3).trans ((times_puts h4).trans
      ((interpolator_puts h5).trans ((vertical_puts h6).trans ((merger_puts h7).trans ((quality_puts h8).trans (ncml_puts h))))))))
    rw [← chain_eq] at this
    exact this

end Fimex.Command
