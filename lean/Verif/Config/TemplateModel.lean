import Verif.Text.Props

/-!
# Templates in the attributes of configurations

Model of `src/CDM_XMLConfigHelper.cc`, which replaces templates like `%MIN_DATETIME(%Y-%m-%d,+3600)%` in the attributes of the configurations of the Felt and
GRIB readers, and of the objects that give the texts (`src/ReplaceStringTimeObject.cc`, `include/fimex/ReplaceStringTemplateObject.h`).

The regular expression is matched as the standard says: at the leftmost place, repetitions as long as possible, going back where the rest does not match.
`strftime` and `string2type<time_t>` are parameters; texts are sequences of characters, elements of XML are what the functions read of them.
-/

namespace Fimex.Template

open Fimex.Text (tokenize)

/-! ## The regular expression -/

/-- The characters that `.` does not match. -/
def isLine (c : Char) : Bool := c == '\n' || c == '\r'

/-- The end `\)%` of the expression: what follows it. -/
def close : List Char → Option (List Char)
  | ')' :: '%' :: r => some r
  | _ => none

/-- `(.*)?\)%` : the text of the group, and what follows. -/
def dots : List Char → Option (List Char × List Char)
  | [] => none
  | c :: s =>
    match (if isLine c then none else dots s) with
    | some (u, r) => some (c :: u, r)
    | none => (close (c :: s)).map fun r => ([], r)

/-- `,?(.*)?\)%` -/
def comma (s : List Char) : Option (List Char × List Char) :=
  match s with
  | ',' :: t =>
    match dots t with
    | some m => some m
    | none => dots s
  | _ => dots s

/-- `([^,]*),?(.*)?\)%` : the texts of both groups, and what follows. -/
def bracket : List Char → Option (List Char × List Char × List Char)
  | [] => none
  | c :: s =>
    match (if c = ',' then none else bracket s) with
    | some (f, o, r) => some (c :: f, o, r)
    | none => (comma (c :: s)).map fun m => ([], m.1, m.2)

/-- What follows a given beginning. -/
def behind : List Char → List Char → Option (List Char)
  | [], s => some s
  | _ :: _, [] => none
  | x :: n, c :: s => if x = c then behind n s else none

/-- src/CDM_XMLConfigHelper.cc:46 `%name(\(([^,]*),?(.*)?\))?%` at the beginning of a text; names are of letters, digits and underscores. -/
def matchAt (n s : List Char) : Option (List Char × List Char × List Char) :=
  match behind ('%' :: n) s with
  | some ('(' :: q) => bracket q
  | some ('%' :: r) => some ([], [], r)
  | _ => none

/-- `std::regex_search`: what is before the match, the groups, what is behind. -/
def search (n : List Char) : List Char → Option (List Char × List Char × List Char × List Char)
  | [] => none
  | c :: s =>
    match matchAt n (c :: s) with
    | some (f, o, r) => some ([], f, o, r)
    | none => (search n s).map fun m => (c :: m.1, m.2)

/-! ## Replacement -/

/-- include/fimex/ReplaceStringObject.h: objects are shared and change. -/
structure Object (σ : Type) where
  set : σ → List Char → List (List Char) → Res σ
  put : σ → Res (List Char)

variable {σ A : Type}

/-- src/CDM_XMLConfigHelper.cc:58 `tokenize(match3, ",")`, with rounds enough (C26). -/
def options (o : List Char) : Res (List (List Char)) :=
  match tokenize (o.length + 1) o [','] with
  | some r => r
  | none => .ub

/-- src/CDM_XMLConfigHelper.cc:49-68: all groups are there in any match, so the format is always set.  Every round takes characters away. -/
def replaceLoop (O : Object σ) (n : List Char) : Nat → List Char → σ → Res (List Char × σ)
  | 0, _, _ => .ub
  | fuel + 1, s, st =>
    match search n s with
    | none => .ok (s, st)
    | some (pre, f, o, rest) =>
      (options o).bind fun os =>
      (O.set st f os).bind fun st =>
      (O.put st).bind fun w =>
      (replaceLoop O n fuel rest st).bind fun p => .ok (pre ++ w ++ p.1, p.2)

def replaceOne (O : Object σ) (n s : List Char) (st : σ) : Res (List Char × σ) := replaceLoop O n (s.length + 1) s st

/-- src/CDM_XMLConfigHelper.cc:42-71 `replaceTemplateAttribute`; the templates are in the order of their names. -/
def replaceAll (O : Object σ) : List (List Char × σ) → List Char → Res (List Char × List (List Char × σ))
  | [], s => .ok (s, [])
  | t :: l, s =>
    (replaceOne O t.1 s t.2).bind fun p =>
    (replaceAll O l p.1).bind fun q => .ok (q.1, (t.1, p.2) :: q.2)

/-! ## Elements -/

/-- A child of an element: its name if it is an element, and what its attributes are, empty if they are missing. -/
structure Child where
  tag : Option String
  prop : String → List Char

/-- src/CDM_XMLConfigHelper.cc:73-88 `fillAttributeListFromXMLNode`; `make` is the constructor of `CDMAttribute` from name, type and value. -/
def fillAttributes (O : Object σ) (make : List Char → List Char → List Char → Res A) : List Child → List (List Char × σ) → Res (List A × List (List Char × σ))
  | [], ts => .ok ([], ts)
  | c :: l, ts =>
    if c.tag = some "attribute" then
      (replaceAll O ts (c.prop "value")).bind fun p =>
      (make (c.prop "name") (c.prop "type") p.1).bind fun a =>
      (fillAttributes O make l p.2).bind fun q => .ok (a :: q.1, q.2)
    else fillAttributes O make l ts

/-- A node found by an XPath: attributes with an empty value have no child. -/
structure Found where
  element : Bool
  props : List (String × Option String)
  children : List Child

/-- src/CDM_XMLConfigHelper.cc:102-106: the attributes of the node; `attr->children` is dereferenced. -/
def properties : List (String × Option String) → Res (List (String × String))
  | [] => .ok []
  | (_, none) :: _ => .ub
  | (n, some v) :: l => (properties l).bind fun r => .ok ((n, v) :: r)

/-- src/CDM_XMLConfigHelper.cc:90-109 `readXPathNodeWithCDMAttributes`: the number of nodes, the attributes of the first, and those made from its children. -/
def readNode (O : Object σ) (make : List Char → List Char → List Char → Res A) (nodes : List Found) (ts : List (List Char × σ)) :
    Res (Nat × List (String × String) × List A × List (List Char × σ)) :=
  match nodes with
  | [] => .ok (0, [], [], ts)
  | n :: l =>
    if n.element = false then .throws
    else
      (properties n.props).bind fun p =>
      (fillAttributes O make n.children ts).bind fun q => .ok (l.length + 1, p, q.1, q.2)

/-! ## Times -/

/-- include/fimex/ReplaceStringTimeObject.h: time, format and offset. -/
structure Time where
  time : Int
  format : List Char
  offset : Int
deriving DecidableEq

/-- src/ReplaceStringTimeObject.cc:34-55; a text that does not fit into the 80 characters of the buffer leaves it undefined. -/
def timeObject (strftime : List Char → Int → List Char) (parse : List Char → Res Int) : Object Time where
  set := fun st f o =>
    match o with
    | [] => .ok { st with format := f }
    | d :: _ => (parse d).bind fun d => .ok { st with format := f, offset := d }
  put := fun st => if (strftime st.format (st.time + st.offset)).length < 80 then .ok (strftime st.format (st.time + st.offset)) else .ub

/-- include/fimex/ReplaceStringTemplateObject.h: any other value, whose text does not depend on the format. -/
def valueObject : Object (List Char) := ⟨fun st _ _ => .ok st, .ok⟩

end Fimex.Template
