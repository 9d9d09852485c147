import Verif.SliceBuilder.Model
import Verif.Fill.Model

/-!
# Filling an existing file: model

Model of `src/FillWriter.cc:42-47`, `103-281`: the mapping of dimensions, and the list of slices read from the input and written to the
output.  The XML configuration is given as the list of translations that were read.  Coordinate values are `Option K` with `none`
for NaN.  Variables are handled one after the other (the code may use OpenMP).  Reading and writing of slices belongs to the reader and
the writer; here they are the pairs of slice builders in the order of the calls.
-/

namespace Fimex.Writer

open Fimex.Fill (forN)

/-- A dimension. -/
structure Dim where
  name : String
  length : ℕ
  unlimited : Bool
deriving DecidableEq, Repr

/-- src/FillWriter.cc:48-54 `FillWriterTranslation`. -/
structure Translation where
  inputDim : String
  outputDim : String
  inSlices : List ℕ
  outSlices : List ℕ
deriving DecidableEq, Repr

/-- What is used of a reader: the dimensions, the shapes of the variables, and their scaled data. -/
structure Side (K : Type) where
  dims : List Dim
  shape : String → Option (List String)
  coord : String → Option (List (Option K))

variable {K : Type} [DecidableEq K]

/-- Floating point equality. -/
def feq : Option K → Option K → Bool
  | some a, some b => decide (a = b)
  | _, _ => false

/-- `std::find`, as a position. -/
def findFrom (d : List (Option K)) (x : Option K) : ℕ → ℕ → Res ℕ
  | pos, 0 => .ok pos
  | pos, r + 1 => do
    let v ← readAt d pos
    if feq v x then .ok pos else findFrom d x (pos + 1) r

/-- Local variables of src/FillWriter.cc:137-139 and whether the dimension became unusable. -/
structure DimState where
  changes : ℕ
  unLimCount : ℕ
  currentSlices : List (ℕ × ℕ)
  bad : Bool
deriving DecidableEq, Repr

/-- src/FillWriter.cc:153-157. -/
def push (s : DimState) (i oPos : ℕ) : DimState :=
  { s with currentSlices := s.currentSlices ++ [(i, oPos)], changes := if i ≠ oPos then s.changes + 1 else s.changes }

/-- src/FillWriter.cc:140-158, the body of the loop over the input positions. -/
def dimStep (iData oData : List (Option K)) (o : Dim) (i : ℕ) (s : DimState) : Res DimState := do
  let x ← readAt iData i
  let oPos ← findFrom oData x 0 o.length
  if oPos = o.length then
    if o.unlimited then .ok { push s i (o.length + s.unLimCount) with unLimCount := s.unLimCount + 1 }
    else .ok { s with bad := true }
  else .ok (push s i oPos)

/-- What is known about a dimension: an entry of `dimSlices`, and membership in `unusableIDims`. -/
structure Plan where
  slices : Option (List (ℕ × ℕ))
  bad : Bool
deriving DecidableEq, Repr

/-- An entry of `dimSlices` created by assigning its elements one by one. -/
def entries (l : List (ℕ × ℕ)) : Option (List (ℕ × ℕ)) := if l = [] then none else some l

/-- src/FillWriter.cc:132-176. -/
def planDim0 (i o : Dim) (iC oC : Option (List (Option K))) : Res Plan :=
  match iC, oC with
  | some iData, some oData => do
    let s ← forN (dimStep iData oData o) 0 i.length ⟨0, 0, [], false⟩
    if s.changes > 0 ∨ i.length ≠ o.length then .ok ⟨some s.currentSlices, s.bad⟩ else .ok ⟨none, s.bad⟩
  | _, _ =>
    if o.unlimited then .ok ⟨entries ((List.range i.length).map fun k => (k, o.length + k)), false⟩
    else if i.length = o.length then .ok ⟨none, false⟩
    else .ok ⟨none, true⟩

/-- src/FillWriter.cc:177-186. The `continue` is taken for usable dimensions, the slicing of unlimited dimensions happens only for
unusable ones. -/
def planDim (i o : Dim) (iC oC : Option (List (Option K))) : Res Plan := do
  let p ← planDim0 i o iC oC
  if ¬ p.bad then .ok p
  else if i.unlimited ∧ p.slices = none then .ok { p with slices := entries ((List.range i.length).map fun k => (k, k)) }
  else .ok p

/-- src/FillWriter.cc:126-187, the loop over the dimensions of the input. -/
def planDims (I O : Side K) : List Dim → Res (List (String × Plan))
  | [] => .ok []
  | i :: is => do
    match O.dims.find? fun o => o.name = i.name with
    | none => planDims I O is
    | some o => do
      let p ← planDim i o (I.coord i.name) (O.coord o.name)
      let ps ← planDims I O is
      .ok ((i.name, p) :: ps)

/-- `dimSlices.find(name)`. -/
def slicesOf (ps : List (String × Plan)) (name : String) : Option (List (ℕ × ℕ)) :=
  match ps.find? fun e => e.1 = name with
  | none => none
  | some e => e.2.slices

/-- `unusableIDims.find(name) != end`. -/
def unusable (ps : List (String × Plan)) (name : String) : Bool := ps.any fun e => decide (e.1 = name) && e.2.bad

/-- `std::equal(a.begin(), a.end(), b.begin())`: `b` has to be at least as long. -/
def stdEqual : List String → List String → Res Bool
  | [], _ => .ok true
  | _ :: _, [] => .ub
  | a :: as, b :: bs => if a = b then stdEqual as bs else .ok false

/-- `CDM::getDimension`. -/
def getDimension (dims : List Dim) (name : String) : Res Dim :=
  match dims.find? fun d => d.name = name with
  | none => .throws
  | some d => .ok d

/-- src/SliceBuilder.cc:53-71, the constructor from a variable. -/
def builderFor (dims : List Dim) (shape : List String) (setUnlimited : Bool) : Res SB.Builder := do
  let ds ← shape.mapM (getDimension dims)
  SB.init shape (ds.map (·.length)) (ds.map fun d => setUnlimited && d.unlimited)

/-- `setStartAndSize` on a copy of a builder. -/
def setB (b : SB.Builder) (dim : String) (start size : ℕ) : Res SB.Builder :=
  match SB.setStartAndSize b dim start size with
  | (b, .ok ()) => .ok b
  | (_, .throws) => .throws
  | (_, .ub) => .ub

/-- src/FillWriter.cc:229-248, one translated dimension of one of the builders. -/
def reduce (b : SB.Builder) (shape : List String) (dim : String) (sl : List ℕ) : Res SB.Builder :=
  if dim ∈ shape then
    match sl with
    | [k] => setB b dim k 1
    | _ => .throws
  else .ok b

/-- src/FillWriter.cc:226-249. -/
def translate (iShape oShape : List String) : List Translation → SB.Builder × SB.Builder → Res (SB.Builder × SB.Builder)
  | [], p => .ok p
  | t :: ts, p => do
    let a ← reduce p.1 iShape t.inputDim t.inSlices
    let b ← reduce p.2 oShape t.outputDim t.outSlices
    translate iShape oShape ts (a, b)

/-- src/FillWriter.cc:258-265, all positions of a dimension for one pair of slices. -/
def expandOne (d : String) (p : SB.Builder × SB.Builder) : List (ℕ × ℕ) → Res (List (SB.Builder × SB.Builder))
  | [] => .ok []
  | (i, o) :: m => do
    let isb ← setB p.1 d i 1
    let osb ← setB p.2 d o 1
    let rest ← expandOne d p m
    .ok ((isb, osb) :: rest)

/-- src/FillWriter.cc:256-267, all pairs of slices for one dimension. -/
def expandAll (d : String) (m : List (ℕ × ℕ)) : List (SB.Builder × SB.Builder) → Res (List (SB.Builder × SB.Builder))
  | [] => .ok []
  | p :: ps => do
    let a ← expandOne d p m
    let rest ← expandAll d m ps
    .ok (a ++ rest)

/-- src/FillWriter.cc:252-269. -/
def expand (ps : List (String × Plan)) : List String → List (SB.Builder × SB.Builder) → Res (List (SB.Builder × SB.Builder))
  | [], s => .ok s
  | d :: ds, s =>
    match slicesOf ps d with
    | none => expand ps ds s
    | some m => do
      let s ← expandAll d m s
      expand ps ds s

/-- src/FillWriter.cc:209-213, the dimensions that are not translated. -/
def untranslated (names : List String) (shape : List String) : List String := shape.filter fun n => n ∉ names

/-- src/FillWriter.cc:195-276 for one variable of the input: the slices that are read and written. -/
def processVar (I O : Side K) (fwts : List Translation) (ps : List (String × Plan)) (v : String) (iShape : List String) :
    Res (List (SB.Builder × SB.Builder)) :=
  match O.shape v with
  | none => .ok []
  | some oShape =>
    if iShape.any (unusable ps) then .ok []
    else do
      let iTest := untranslated (fwts.map (·.inputDim)) iShape
      let oTest := untranslated (fwts.map (·.outputDim)) oShape
      let same ← stdEqual iTest oTest
      if ¬ same then .ok []
      else do
        let inputSb ← builderFor I.dims iShape false
        let outputSb ← builderFor O.dims oShape true
        let p ← translate iShape oShape fwts (inputSb, outputSb)
        expand ps iTest [p]

/-- src/FillWriter.cc:189-277, the variables in order: the slices written, and the outcome. -/
def processVars (I O : Side K) (fwts : List Translation) (ps : List (String × Plan)) :
    List (String × List String) → List (String × List (SB.Builder × SB.Builder)) × Res Unit
  | [] => ([], .ok ())
  | (v, shape) :: vs =>
    match processVar I O fwts ps v shape with
    | .throws => ([], .throws)
    | .ub => ([], .ub)
    | .ok sl =>
      let r := processVars I O fwts ps vs
      ((v, sl) :: r.1, r.2)

/-- src/FillWriter.cc:110-281 `FillWriter`, with the variables of the input. -/
def fillWriter (I O : Side K) (fwts : List Translation) (vars : List (String × List String)) :
    List (String × List (SB.Builder × SB.Builder)) × Res Unit :=
  match planDims I O I.dims with
  | .throws => ([], .throws)
  | .ub => ([], .ub)
  | .ok ps =>
    let r := processVars I O fwts ps vars
    match r.2 with
    | .ok () => if ps.any (fun e => e.2.bad) then (r.1, .throws) else r
    | _ => r

end Fimex.Writer
