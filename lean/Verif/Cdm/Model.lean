import Verif.Basic

/-!
# Model of the dataset description `CDM` (src/CDM.cc)

A mutating call returns the new state together with its outcome, so that what an exception leaves
behind is visible. `std::vector` members are lists; the `std::map` of attributes is a partial
function on variable names (its iteration order is not used by the modelled functions).
Variable payload other than name and shape (type, data, vector direction) is one value of type `P`;
an attribute value is a value of type `V`.
-/

namespace Fimex.Cdm

/-- include/fimex/CDMDimension.h. -/
structure Dim where
  name : String
  length : Nat
  unlimited : Bool
deriving DecidableEq, Repr

/-- include/fimex/CDMVariable.h: name, shape and everything else. -/
structure Var (P : Type) where
  name : String
  shape : List String
  payload : P
deriving DecidableEq, Repr

/-- include/fimex/CDMAttribute.h: name and value. -/
structure Attr (V : Type) where
  name : String
  value : V
deriving DecidableEq, Repr

/-- src/CDM.cc:100-111 `CDMImpl`. `CS` is what `listCoordinateSystems` produces. -/
structure CDM (P V CS : Type) where
  attrs : String → Option (List (Attr V))
  vars : List (Var P)
  dims : List Dim
  coordsInitialized : Bool
  coordSystems : CS

variable {P V CS : Type}

/-- `CDM::globalAttributeNS()`. -/
def globalNS : String := "_GLOBAL"

/-- src/CDM.cc:155-158 `hasVariable`. -/
def hasVariable (c : CDM P V CS) (n : String) : Bool := c.vars.any fun v => v.name == n

/-- src/CDM.cc:160-168 `getVariable`. -/
def getVariable (c : CDM P V CS) (n : String) : Res (Var P) :=
  match c.vars.find? fun v => v.name == n with
  | some v => .ok v
  | none => .throws

/-- src/CDM.cc:145-154 `addVariable`. -/
def addVariable (c : CDM P V CS) (v : Var P) : CDM P V CS × Res Unit :=
  let c := { c with coordsInitialized := false }
  if !hasVariable c v.name then ({ c with vars := c.vars ++ [v] }, .ok ()) else (c, .throws)

/-- src/CDM.cc:245-250 `removeVariable`. -/
def removeVariable (c : CDM P V CS) (n : String) : CDM P V CS :=
  { c with
    coordsInitialized := false
    vars := c.vars.filter fun v => !(v.name == n)
    attrs := fun m => if m = n then none else c.attrs m }

/-- src/CDM.cc:450-458 `getAttributes(varName)`. -/
def getAttributes (c : CDM P V CS) (n : String) : List (Attr V) := (c.attrs n).getD []

/-- src/CDM.cc:373-386 `addAttribute`. `attributes[varName]` creates an empty entry before the test
for an existing attribute. -/
def addAttribute (c : CDM P V CS) (n : String) (a : Attr V) : CDM P V CS × Res Unit :=
  let c := { c with coordsInitialized := false }
  if n ≠ globalNS ∧ !hasVariable c n then (c, .throws)
  else
    let c := { c with attrs := fun m => if m = n then some (getAttributes c n) else c.attrs m }
    if (getAttributes c n).any fun b => b.name == a.name then (c, .throws)
    else ({ c with attrs := fun m => if m = n then some (getAttributes c n ++ [a]) else c.attrs m }, .ok ())

/-- src/CDM.cc:399-407 `removeAttribute`. -/
def removeAttribute (c : CDM P V CS) (n a : String) : CDM P V CS :=
  { c with
    coordsInitialized := false
    attrs := fun m => if m = n then (c.attrs n).map (·.filter fun b => !(b.name == a)) else c.attrs m }

/-- src/CDM.cc:388-397 `addOrReplaceAttribute`. -/
def addOrReplaceAttribute (c : CDM P V CS) (n : String) (a : Attr V) : CDM P V CS × Res Unit :=
  let c := { c with coordsInitialized := false }
  if n ≠ globalNS ∧ !hasVariable c n then (c, .throws)
  else
    let c := removeAttribute c n a.name
    ({ c with attrs := fun m => if m = n then some (getAttributes c n ++ [a]) else c.attrs m }, .ok ())

/-- src/CDM.cc:410-421 `getAttribute(varName, attrName)`. -/
def getAttribute (c : CDM P V CS) (n a : String) : Res (Attr V) :=
  match c.attrs n with
  | none => .throws
  | some l =>
    match l.find? fun b => b.name == a with
    | some b => .ok b
    | none => .throws

/-- The attribute loop of `renameVariable` (src/CDM.cc:195-197). -/
def addAttributes (c : CDM P V CS) (n : String) : List (Attr V) → CDM P V CS × Res Unit
  | [] => (c, .ok ())
  | a :: l =>
    match addAttribute c n a with
    | (c, .ok ()) => addAttributes c n l
    | (c, r) => (c, r)

/-- Replace the name of the first variable called `old` (`getVariable(old).setName(new)`). -/
def setFirstName (old new : String) : List (Var P) → List (Var P)
  | [] => []
  | v :: l => if v.name == old then { v with name := new } :: l else v :: setFirstName old new l

/-- src/CDM.cc:185-204 `renameVariable`. Every `CDMException` raised inside is caught and turned into
the result `false`; what happened before stays done. -/
def renameVariable (c : CDM P V CS) (old new : String) : CDM P V CS × Res Bool :=
  let c := removeVariable { c with coordsInitialized := false } new
  match getVariable c old with
  | .ok _ =>
    let c := { c with vars := setFirstName old new c.vars }
    match addAttributes c new (getAttributes c old) with
    | (c, .ok ()) => (removeVariable c old, .ok true)
    | (c, .throws) => (c, .ok false)
    | (c, .ub) => (c, .ub)
  | .throws => (c, .ok false)
  | .ub => (c, .ub)

/-- src/CDM.cc:263-266 `hasDimension`. -/
def hasDimension (c : CDM P V CS) (n : String) : Bool := c.dims.any fun d => d.name == n

/-- src/CDM.cc:268-276 `getDimension`. -/
def getDimension (c : CDM P V CS) (n : String) : Res Dim :=
  match c.dims.find? fun d => d.name == n with
  | some d => .ok d
  | none => .throws

/-- src/CDM.cc:253-261 `addDimension`. -/
def addDimension (c : CDM P V CS) (d : Dim) : CDM P V CS × Res Unit :=
  let c := { c with coordsInitialized := false }
  if !hasDimension c d.name then ({ c with dims := c.dims ++ [d] }, .ok ()) else (c, .throws)

/-- src/CDMVariable.cc:59-63 `checkDimension`. -/
def checkDimension (v : Var P) (n : String) : Bool := v.shape.contains n

/-- src/CDM.cc:285-295 `testDimensionInUse`. -/
def testDimensionInUse (c : CDM P V CS) (n : String) : Bool :=
  if !hasDimension c n then false
  else c.vars.foldl (fun inUse v => if checkDimension v n then true else inUse) false

/-- src/CDM.cc:335-350 `removeDimension(name, ignoreInUse)`. -/
def removeDimension (c : CDM P V CS) (n : String) (ignoreInUse : Bool) : CDM P V CS × Res Bool :=
  if !ignoreInUse && testDimensionInUse c n then (c, .throws)
  else
    if hasDimension c n then
      ({ c with dims := c.dims.filter (fun d => !(d.name == n)), coordsInitialized := false }, .ok true)
    else (c, .ok false)

/-- `getDimension(old).setName(new)`. -/
def setFirstDimName (old new : String) : List Dim → List Dim
  | [] => []
  | d :: l => if d.name == old then { d with name := new } :: l else d :: setFirstDimName old new l

/-- The shape rewriting of one variable (src/CDM.cc:317-325). -/
def renameInShape (old new : String) (v : Var P) : Var P :=
  if checkDimension v old then { v with shape := v.shape.map fun s => if s = old then new else s } else v

/-- src/CDM.cc:302-328 `renameDimension(oldName, newName, ignoreInUse)`. -/
def renameDimension (c : CDM P V CS) (old new : String) (ignoreInUse : Bool) : CDM P V CS × Res Bool :=
  let c := { c with coordsInitialized := false }
  if !hasDimension c old then (c, .ok false)
  else
    -- lines 306-312
    let pre : CDM P V CS × Res Unit :=
      if hasDimension c new then
        if !ignoreInUse && testDimensionInUse c new then (c, .throws)
        else
          match removeDimension c new ignoreInUse with
          | (c, .ok _) => (c, .ok ())
          | (c, .throws) => (c, .throws)
          | (c, .ub) => (c, .ub)
      else (c, .ok ())
    match pre with
    | (c, .ok ()) =>
      match getDimension c old with
      | .ok _ =>
        ({ c with dims := setFirstDimName old new c.dims, vars := c.vars.map (renameInShape old new) },
          .ok true)
      | .throws => (c, .throws)
      | .ub => (c, .ub)
    | (c, .throws) => (c, .throws)
    | (c, .ub) => (c, .ub)

/-- src/CDM.cc:352-360 `getUnlimitedDim`. -/
def getUnlimitedDim (c : CDM P V CS) : Option Dim := c.dims.find? (·.unlimited)

/-- src/CDM.cc:362-371 `hasUnlimitedDim`. -/
def hasUnlimitedDim (c : CDM P V CS) (v : Var P) : Bool :=
  match getUnlimitedDim c with
  | none => false
  | some d => v.shape.contains d.name

/-- src/CDM.cc:206-218 `checkVariableAttribute`; `matches` is `std::regex_match` of the compiled
expression with the attribute's text. -/
def checkVariableAttribute (c : CDM P V CS) (n a : String) (matches_ : V → Bool) : Bool :=
  match c.attrs n with
  | none => false
  | some l =>
    match l.find? fun b => b.name == a with
    | some b => matches_ b.value
    | none => false

/-- src/CDM.cc:220-242 `findVariables`: for each variable, `find_if` for a criterion that is not met. -/
def findVariables (c : CDM P V CS) (attrs : List (String × (V → Bool))) (dims : List String) :
    List String :=
  c.vars.filterMap fun v =>
    match attrs.find? fun ar => !checkVariableAttribute c v.name ar.1 ar.2 with
    | some _ => none
    | none =>
      match dims.find? fun d => !checkDimension v d with
      | some _ => none
      | none => some v.name

/-- The content of the dataset that `listCoordinateSystems` can see. -/
structure Content (P V : Type) where
  attrs : String → Option (List (Attr V))
  vars : List (Var P)
  dims : List Dim

/-- The observable content of a dataset description. -/
def CDM.content (c : CDM P V CS) : Content P V := ⟨c.attrs, c.vars, c.dims⟩

/-- src/CDM.cc:113-122 `enhance`, called by every coordinate query; returns the coordinate systems the
query works with. -/
def enhance (listCS : Content P V → CS) (c : CDM P V CS) : CDM P V CS × CS :=
  if !c.coordsInitialized then
    let cs := listCS c.content
    ({ c with coordSystems := cs, coordsInitialized := true }, cs)
  else (c, c.coordSystems)

end Fimex.Cdm
