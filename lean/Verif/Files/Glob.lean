import Verif.Files.Scan
import Verif.Text.Props

/-!
# Files by a pattern, and extensions of file names

Model of `globFiles` and `getExtension`, `src/FileUtils.cc:185-239`, on the model of `scanFiles` in `Verif.Files.Scan`; the theorems are C124
in `Verif.Files.GlobProps`.

A character is a byte.  `std::regex` is modelled for the expressions that occur: the two constant expressions as the backtracking search
they prescribe, and the expression built from the pattern by a reader of its text (`parse`) into a sequence of character classes with
or without `*`, which accepts the subset of the ECMAScript grammar that is needed and nothing else, and a matcher on that sequence.  In that
grammar `.` does not match the ends of lines.  The file system is a function from directory names to trees.
-/

namespace Fimex.Glob

open Fimex.Files

/-! ## The initial directory -/

/-- What `.` of an expression does not match. -/
def isEol (c : Char) : Bool := c = '\n' ∨ c = '\r'

/-- `.*` matches all of the text. -/
def dotStar (s : List Char) : Bool := s.all fun c => !isEol c

/-- src/FileUtils.cc:190-196, `regex_match` of `^([^*?]*/)(.*)`: the first group takes as much as it can. -/
def initial : List Char → Option (List Char × List Char)
  | [] => none
  | c :: s =>
    if c = '*' ∨ c = '?' then none
    else
      match initial s with
      | some (d, r) => some (c :: d, r)
      | none => if c = '/' ∧ dotStar s = true then some ([c], s) else none

/-- src/FileUtils.cc:187-196: `dir` and `reg`. -/
def split (glob : List Char) : List Char × List Char := (initial glob).getD (['.'], glob)

/-! ## The depth -/

/-- `reg.find("**") != npos`. -/
def hasDouble : List Char → Bool
  | [] => false
  | [_] => false
  | a :: b :: s => (a = '*' ∧ b = '*') || hasDouble (b :: s)

/-- src/FileUtils.cc:198-202. -/
def depth (reg : List Char) : Int := if hasDouble reg then -1 else (reg.count '/' : Int)

/-! ## The expression -/

/-- src/FileUtils.cc:208-224: the text of the expression (`regex_escape` of a single character is `Text.regexEscape [c]`). -/
def regText : List Char → List Char
  | [] => []
  | '?' :: s => "[^/]".toList ++ regText s
  | '*' :: '*' :: s => ".*".toList ++ regText s
  | '*' :: s => "[^/]*".toList ++ regText s
  | c :: s => Fimex.Text.regexEscape [c] ++ regText s

/-- A class of characters. -/
inductive Set where
  | lit (c : Char)
  | notSlash
  | any
deriving DecidableEq

/-- A class, repeated or not. -/
structure Item where
  set : Set
  star : Bool
deriving DecidableEq

/-- Membership. -/
def Set.has : Set → Char → Bool
  | .lit c, x => x = c
  | .notSlash, x => x ≠ '/'
  | .any, x => !isEol x

/-- Is the next character the operator `*`? -/
def starNext : List Char → Bool × List Char
  | '*' :: s => (true, s)
  | s => (false, s)

/-- One class at the start of an expression; `none` for what is not in the subset. -/
def atom : List Char → Option (Set × List Char)
  | '\\' :: c :: s => if Fimex.Text.isOperator c then some (.lit c, s) else none
  | '[' :: '^' :: '/' :: ']' :: s => some (.notSlash, s)
  | '.' :: s => some (.any, s)
  | c :: s => if Fimex.Text.isOperator c then none else some (.lit c, s)
  | [] => none

/-- The text of an expression as a sequence of classes; `fuel` at least the length of the text. -/
def parse : Nat → List Char → Option (List Item)
  | _, [] => some []
  | 0, _ :: _ => none
  | n + 1, s =>
    match atom s with
    | none => none
    | some (a, r) => (parse n (starNext r).2).map (⟨a, (starNext r).1⟩ :: ·)

/-- A repeated class before the expression `m`: as often as wanted, then `m`. -/
def starMatch (a : Set) (m : List Char → Bool) : List Char → Bool
  | [] => m []
  | c :: s => m (c :: s) || (a.has c && starMatch a m s)

/-- `regex_match`. -/
def matchAll : List Item → List Char → Bool
  | [], s => s.isEmpty
  | ⟨a, false⟩ :: is, s =>
    match s with
    | [] => false
    | c :: r => a.has c && matchAll is r
  | ⟨a, true⟩ :: is, s => starMatch a (matchAll is) s

/-! ## The files -/

/-- src/FileUtils.cc:104-106: the names of the entries of a directory begin with it. -/
def withSlash (dir : List Char) : List Char := if dir ≠ [] ∧ dir.getLast? ≠ some '/' then dir ++ ['/'] else dir

/-- src/FileUtils.cc:185-227 `globFiles`.  `tree` is the file system; an expression that cannot be read raises `regex_error`. -/
def globFiles (tree : List Char → Dir) (glob : List Char) : Res (List (List Char)) :=
  let dr := split glob
  match parse (regText dr.2).length (regText dr.2) with
  | none => .throws
  | some items => (scanFiles (matchAll items) false (tree dr.1) (depth dr.2)).bind fun ps =>
      .ok (ps.map fun p => withSlash dr.1 ++ relPath p)

/-! ## The extension -/

/-- `\w` in the C locale. -/
def isWord (c : Char) : Bool := c.isAlphanum || c = '_'

/-- src/FileUtils.cc:231-235, `regex_match` of `.*\.(\w+)$`: the first group as far to the right as possible. -/
def extensionGroup : List Char → Option (List Char)
  | [] => none
  | c :: s =>
    match (if isEol c then none else extensionGroup s) with
    | some e => some e
    | none => if c = '.' ∧ s ≠ [] ∧ s.all isWord = true then some s else none

/-- src/FileUtils.cc:229-239 `getExtension`. -/
def extension (name : List Char) : List Char := ((extensionGroup name).getD []).map Char.toLower

end Fimex.Glob
