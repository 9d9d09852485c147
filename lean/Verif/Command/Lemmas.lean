import Verif.Command.Model

/-!
# Which options the program looks at

For each stage the keys it asks for, and that its result depends on nothing else.  The lists are no part of the model: they are found by
the proofs below.
-/

namespace Fimex.Command

open History (Act lift modify andThen)

variable {R T P : Type}

/-- Two sets of options with the same values for the keys. -/
def Same (keys : List String) (o o' : Opts) : Prop := ∀ k ∈ keys, o k = o' k

theorem Same.left {a b : List String} {o o' : Opts} (h : Same (a ++ b) o o') : Same a o o' := fun k hk => h k (List.mem_append_left _ hk)

theorem Same.right {a b : List String} {o o' : Opts} (h : Same (a ++ b) o o') : Same b o o' := fun k hk => h k (List.mem_append_right _ hk)

def printKeys (stage : String) : List String := [stage ++ ".printNcML", stage ++ ".printCS", stage ++ ".printSize"]

def fileKeys (io : String) : List String := [io ++ ".type", io ++ ".file", io ++ ".config", io ++ ".optional"]

def processKeys : List String :=
  ["process.accumulateVariable", "process.deaccumulateVariable", "process.rotateVector.direction", "process.rotateVector.angle",
   "process.rotateVector.x", "process.rotateVector.stdNameX", "process.rotateVector.y", "process.rotateVector.stdNameY",
   "process.rotateVector.all", "process.addVerticalVelocity", "process.addGeopotentialHeight"]

def qualityKeys (io : String) : List String := [io ++ ".autoConfigString", io ++ ".config"]

def extractKeys : List String :=
  ["extract.removeVariable", "extract.selectVariables", "extract.selectVariables.noAuxiliary", "extract.reduceDimension.name",
   "extract.reduceDimension.start", "extract.reduceDimension.end", "extract.pickDimension.name", "extract.pickDimension.list",
   "extract.reduceTime.start", "extract.reduceTime.end", "extract.reduceVerticalAxis.unit", "extract.reduceVerticalAxis.start",
   "extract.reduceVerticalAxis.end", "extract.reduceToBoundingBox.south", "extract.reduceToBoundingBox.north",
   "extract.reduceToBoundingBox.east", "extract.reduceToBoundingBox.west"]

def interpolateKeys : List String :=
  ["interpolate.projString", "interpolate.method", "interpolate.xAxisValues", "interpolate.yAxisValues", "interpolate.xAxisUnit",
   "interpolate.yAxisUnit", "interpolate.xAxisType", "interpolate.yAxisType", "interpolate.distanceOfInterest",
   "interpolate.latitudeName", "interpolate.longitudeName", "interpolate.preprocess", "interpolate.postprocess",
   "interpolate.latitudeValues", "interpolate.longitudeValues", "interpolate.vcrossNames", "interpolate.vcrossNoPoints",
   "interpolate.template"]

def verticalKeys : List String :=
  ["verticalInterpolate.config", "verticalInterpolate.type", "verticalInterpolate.ignoreValidityMin",
   "verticalInterpolate.ignoreValidityMax", "verticalInterpolate.method", "verticalInterpolate.templateVar",
   "verticalInterpolate.toAxis", "verticalInterpolate.level1", "verticalInterpolate.dataConversion"]

def mergeKeys : List String :=
  ["merge.inner.file", "merge.inner.type", "merge.inner.config", "merge.inner.cfg", "merge.smoothing", "merge.keepOuterVariables",
   "merge.method", "merge.projString", "merge.xAxisValues", "merge.yAxisValues", "merge.xAxisUnit", "merge.yAxisUnit",
   "merge.xAxisType", "merge.yAxisType"]

def outputKeys : List String := ["output.file", "output.fillFile", "output.type", "output.config"]

/-- All keys the program asks for. -/
def readKeys : List String :=
  (fileKeys "input" ++ printKeys "input") ++ (processKeys ++ ((qualityKeys "qualityExtract" ++ printKeys "qualityExtract") ++
  ((extractKeys ++ printKeys "extract") ++ ((["timeInterpolate.timeSpec"] ++ printKeys "timeInterpolate") ++
  ((interpolateKeys ++ printKeys "interpolate") ++ ((verticalKeys ++ printKeys "verticalInterpolate") ++
  ((mergeKeys ++ ((fileKeys "merge.inner" ++ printKeys "merge.inner") ++ printKeys "merge")) ++
  ((qualityKeys "qualityExtract2" ++ printKeys "qualityExtract2") ++ ((["ncml.config"] ++ printKeys "ncml") ++
  (outputKeys ++ printKeys "output"))))))))))

theorem printed_congr (env : Env R T P) {o o' : Opts} {stage : String} (h : Same (printKeys stage) o o') (r : Reader R T P) :
    printed env o stage r = printed env o' stage r := by
  simp only [Same, printKeys, List.mem_cons, forall_eq_or_imp, List.not_mem_nil, false_imp_iff, implies_true, and_true] at h
  obtain ⟨k1, k2, k3⟩ := h
  delta printed isSet
  rw [k1, k2, k3]

theorem fileReader_congr (env : Env R T P) {o o' : Opts} {io : String} (h : Same (fileKeys io ++ printKeys io) o o') :
    fileReader env o io = fileReader env o' io := by
  have hp := printed_congr env h.right
  have h := h.left
  simp only [Same, fileKeys, List.mem_cons, forall_eq_or_imp, List.not_mem_nil, false_imp_iff, implies_true, and_true] at h
  obtain ⟨k1, k2, k3, k4⟩ := h
  delta fileReader text isSet
  simp only [hp]
  rw [k1, k2, k3, k4]

theorem processor_congr (env : Env R T P) {o o' : Opts} (h : Same processKeys o o') (r : Reader R T P) :
    processor env o r = processor env o' r := by
  simp only [Same, processKeys, List.mem_cons, forall_eq_or_imp, List.not_mem_nil, false_imp_iff, implies_true, and_true] at h
  obtain ⟨k1, k2, k3, k4, k5, k6, k7, k8, k9, k10, k11⟩ := h
  delta processor wantsProcessor processOps rotations rotateVectors rotateAngles isSet
  rw [k1, k2, k3, k4, k5, k6, k7, k8, k9, k10, k11]

theorem quality_congr (env : Env R T P) {o o' : Opts} {io : String} (h : Same (qualityKeys io ++ printKeys io) o o') (r : Reader R T P) :
    quality env o io r = quality env o' io r := by
  have hp := printed_congr env h.right
  have h := h.left
  simp only [Same, qualityKeys, List.mem_cons, forall_eq_or_imp, List.not_mem_nil, false_imp_iff, implies_true, and_true] at h
  obtain ⟨k1, k2⟩ := h
  delta quality qualityReader text isSet
  simp only [hp]
  rw [k1, k2]

theorem extractor_congr (env : Env R T P) {o o' : Opts} (h : Same (extractKeys ++ printKeys "extract") o o') (r : Reader R T P) :
    extractor env o r = extractor env o' r := by
  have hp := printed_congr env h.right
  have h := h.left
  simp only [Same, extractKeys, List.mem_cons, forall_eq_or_imp, List.not_mem_nil, false_imp_iff, implies_true, and_true] at h
  obtain ⟨k1, k2, k3, k4, k5, k6, k7, k8, k9, k10, k11, k12, k13, k14, k15, k16, k17⟩ := h
  delta extractor wantsExtractor extractOps reduceOps pickOps timeOps limit verticalOps boxOps side variableOps isSet
  simp only [hp]
  rw [k1, k2, k3, k4, k5, k6, k7, k8, k9, k10, k11, k12, k13, k14, k15, k16, k17]

theorem times_congr (env : Env R T P) {o o' : Opts} (h : Same (["timeInterpolate.timeSpec"] ++ printKeys "timeInterpolate") o o')
    (r : Reader R T P) : times env o r = times env o' r := by
  have hp := printed_congr env h.right
  have h := h.left
  simp only [Same, List.mem_cons, forall_eq_or_imp, List.not_mem_nil, false_imp_iff, implies_true, and_true] at h
  have k1 := h
  delta times isSet
  simp only [hp]
  rw [k1]

theorem interpolator_congr (env : Env R T P) {o o' : Opts} (h : Same (interpolateKeys ++ printKeys "interpolate") o o') (r : Reader R T P) :
    interpolator env o r = interpolator env o' r := by
  have hp := printed_congr env h.right
  have h := h.left
  simp only [Same, interpolateKeys, List.mem_cons, forall_eq_or_imp, List.not_mem_nil, false_imp_iff, implies_true, and_true] at h
  obtain ⟨k1, k2, k3, k4, k5, k6, k7, k8, k9, k10, k11, k12, k13, k14, k15, k16, k17, k18⟩ := h
  delta interpolator target toProjection toSections toPoints sections setup textOpt typeOf methodOf isSet
  simp only [hp]
  rw [k1, k2, k3, k4, k5, k6, k7, k8, k9, k10, k11, k12, k13, k14, k15, k16, k17, k18]

theorem vertical_congr (env : Env R T P) {o o' : Opts} (h : Same (verticalKeys ++ printKeys "verticalInterpolate") o o') (r : Reader R T P) :
    vertical env o r = vertical env o' r := by
  have hp := printed_congr env h.right
  have h := h.left
  simp only [Same, verticalKeys, List.mem_cons, forall_eq_or_imp, List.not_mem_nil, false_imp_iff, implies_true, and_true] at h
  obtain ⟨k1, k2, k3, k4, k5, k6, k7, k8, k9⟩ := h
  delta vertical verticalNcml conversions levels verticalReader text textOpt isSet
  simp only [hp]
  rw [k1, k2, k3, k4, k5, k6, k7, k8, k9]

theorem ncml_congr (env : Env R T P) {o o' : Opts} (h : Same (["ncml.config"] ++ printKeys "ncml") o o') (r : Reader R T P) :
    ncml env o r = ncml env o' r := by
  have hp := printed_congr env h.right
  have h := h.left
  simp only [Same, List.mem_cons, forall_eq_or_imp, List.not_mem_nil, false_imp_iff, implies_true, and_true] at h
  have k1 := h
  delta ncml text isSet
  simp only [hp]
  rw [k1]

theorem merger_congr (env : Env R T P) (again : Opts → Reader R T P → Act (Log R T P) (Reader R T P)) {o o' : Opts}
    (h : Same (mergeKeys ++ ((fileKeys "merge.inner" ++ printKeys "merge.inner") ++ printKeys "merge")) o o') (r : Reader R T P) :
    merger env again o r = merger env again o' r := by
  have hf := fileReader_congr env h.right.left
  have hp := printed_congr env h.right.right
  have h := h.left
  simp only [Same, mergeKeys, List.mem_cons, forall_eq_or_imp, List.not_mem_nil, false_imp_iff, implies_true, and_true] at h
  obtain ⟨k1, k2, k3, k4, k5, k6, k7, k8, k9, k10, k11, k12, k13, k14⟩ := h
  delta merger wantsMerger innerTasks mergeReader mergeGrid methodOf typeOf textOpt isSet
  simp only [hp, hf]
  rw [k1, k2, k3, k4, k5, k6, k7, k8, k9, k10, k11, k12, k13, k14]

theorem fillWrite_congr (env : Env R T P) {o o' : Opts} (h : Same outputKeys o o') (r : Reader R T P) :
    fillWrite env o r = fillWrite env o' r := by
  simp only [Same, outputKeys, List.mem_cons, forall_eq_or_imp, List.not_mem_nil, false_imp_iff, implies_true, and_true] at h
  obtain ⟨-, k2, -, k4⟩ := h
  delta fillWrite text isSet
  rw [k2, k4]

theorem writeOut_congr (env : Env R T P) {o o' : Opts} (h : Same (outputKeys ++ printKeys "output") o o') (r : Reader R T P) :
    writeOut env o r = writeOut env o' r := by
  have hp := printed_congr env h.right
  have h := h.left
  simp only [Same, outputKeys, List.mem_cons, forall_eq_or_imp, List.not_mem_nil, false_imp_iff, implies_true, and_true] at h
  obtain ⟨k1, k2, k3, k4⟩ := h
  delta writeOut text isSet
  simp only [hp]
  rw [k1, k3, k4]

/-- The outcome of the program depends on these keys only. -/
theorem run_congr (env : Env R T P) (depth : Nat) {o o' : Opts} (h : Same readKeys o o') : run env depth o = run env depth o' := by
  have h0 := fileReader_congr env h.left
  have h1 := processor_congr env h.right.left
  have h2 := quality_congr env h.right.right.left
  have h3 := extractor_congr env h.right.right.right.left
  have h4 := times_congr env h.right.right.right.right.left
  have h5 := interpolator_congr env h.right.right.right.right.right.left
  have h6 := vertical_congr env h.right.right.right.right.right.right.left
  have h7 := fun again => merger_congr env again h.right.right.right.right.right.right.right.left
  have h8 := quality_congr env h.right.right.right.right.right.right.right.right.left
  have h9 := ncml_congr env h.right.right.right.right.right.right.right.right.right.left
  have ha := fillWrite_congr env h.right.right.right.right.right.right.right.right.right.right.left
  have hb := writeOut_congr env h.right.right.right.right.right.right.right.right.right.right
  have ht : tasks env depth o = tasks env depth o' := by
    cases depth with
    | zero => rfl
    | succ d => funext r; simp only [tasks, h1, h2, h3, h4, h5, h6, h7, h8, h9]
  simp only [run, h0, ht, ha, hb]

/-! ## The calls step by step -/

theorem bind_def {S α β : Type} (x : Act S α) (f : α → Act S β) (s : S) : (x >>= f) s = andThen f (x s) := rfl

theorem bind_ok {S α β : Type} {x : Act S α} {f : α → Act S β} {s s' : S} {b : β} (h : (x >>= f) s = (s', .ok b)) :
    ∃ t a, x s = (t, .ok a) ∧ f a t = (s', .ok b) := by
  rw [bind_def] at h
  rcases hx : x s with ⟨t, _ | _ | _⟩ <;> rw [hx] at h
  · exact ⟨t, _, rfl, h⟩
  · cases h
  · cases h

theorem lift_ok {S α : Type} {x : Res α} {s s' : S} {a : α} (h : lift x s = (s', .ok a)) : x = .ok a ∧ s' = s := by
  cases h; exact ⟨rfl, rfl⟩

theorem pure_ok {S α : Type} {s s' : S} {a b : α} (h : (pure a : Act S α) s = (s', .ok b)) : b = a ∧ s' = s := by
  cases h; exact ⟨rfl, rfl⟩

theorem res_bind {α β : Type} {x : Res α} {f : α → Res β} {b : β} (h : x.bind f = .ok b) : ∃ a, x = .ok a ∧ f a = .ok b := by
  cases x with
  | ok a => exact ⟨a, rfl, h⟩
  | throws => cases h
  | ub => cases h

theorem made_ok {env : Env R T P} {r r' : Reader R T P} (h : made env r = .ok r') : r' = r ∧ env.accept r = true := by
  unfold made at h
  split at h
  · rename_i ha; cases h; exact ⟨rfl, ha⟩
  · cases h

/-- A reader that is printed and returned. -/
theorem returned {env : Env R T P} {o : Opts} {stage : String} {x : Res (Reader R T P)} {r' : Reader R T P} {l l' : Log R T P}
    (h : (lift x >>= fun e => printed env o stage e >>= fun _ => pure e : Act (Log R T P) (Reader R T P)) l = (l', .ok r')) :
    x = .ok r' ∧ printed env o stage r' l = (l', .ok ()) := by
  obtain ⟨l1, e, h1, h2⟩ := bind_ok h
  obtain ⟨rfl, rfl⟩ := lift_ok h1
  obtain ⟨l2, u, h3, h4⟩ := bind_ok h2
  obtain ⟨rfl, rfl⟩ := pure_ok h4
  exact ⟨rfl, h3⟩

end Fimex.Command
