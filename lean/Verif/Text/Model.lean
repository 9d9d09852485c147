import Verif.Basic

/-!
# Text helpers

Model of `src/StringUtils.cc`, `include/fimex/StringUtils.h`.  A `std::string` is a list of
characters; `std::string::npos` is `none`.
-/

namespace Fimex.Text

/-- `str.find_first_of(delims, from)` / `str.find_first_not_of(delims, from)`: the first position
`≥ from` whose character satisfies `p`; from `npos` nothing is found. -/
def findFrom (p : Char → Bool) (s : List Char) (from_ : Option Nat) : Option Nat :=
  from_.bind fun k => ((s.drop k).findIdx? p).map (k + ·)

/-- `str.find_last_not_of`/`find_last_of` without start position. -/
def findLast (p : Char → Bool) (s : List Char) : Option Nat :=
  (s.reverse.findIdx? p).map (s.length - 1 - ·)

/-- `str.substr(from, to - from)`; `to = npos` means up to the end.  A start behind the end raises
`std::out_of_range`. -/
def substr (s : List Char) (from_ : Option Nat) (to : Option Nat) : Res (List Char) :=
  match from_ with
  | none => .throws
  | some k =>
    if s.length < k then .throws
    else match to with
      | none => .ok (s.drop k)
      | some e => .ok ((s.drop k).take (e - k))

/-- src/StringUtils.cc:39-49 `trim`. -/
def trim (s ws : List Char) : Res (List Char) :=
  match findFrom (fun c => !ws.contains c) s (some 0) with
  | none => .ok []
  | some begin_ =>
    match findLast (fun c => !ws.contains c) s with
    | none => substr s (some begin_) none
    | some end_ => substr s (some begin_) (some (end_ + 1))

/-- src/StringUtils.cc:60-67 `startsOrEndsWith`; `compare(pos, n, sub)` compares the `n` characters
from `pos`, a position behind the end raises `std::out_of_range`. -/
def startsOrEndsWith (txt sub : List Char) (startcompare : Nat) : Res Bool :=
  if sub = [] then .ok true
  else if txt.length < sub.length then .ok false
  else if txt.length < startcompare then .throws
  else .ok (decide ((txt.drop startcompare).take sub.length = sub))

/-- src/StringUtils.cc:69-72. -/
def startsWith (txt start : List Char) : Res Bool := startsOrEndsWith txt start 0

/-- src/StringUtils.cc:74-77.  `((int)txt.size()) - ((int)end.size())` is only used if it is not
negative (natural number subtraction here). -/
def endsWith (txt end_ : List Char) : Res Bool :=
  startsOrEndsWith txt end_ (txt.length - end_.length)

/-- src/StringUtils.cc:86 `ESCAPE_THESE`. -/
def escapeThese : List Char := "*?\\+.()[]{}|^$".toList

/-- src/StringUtils.cc:88-106 `regex_escape`. -/
def regexEscape : List Char → List Char
  | [] => []
  | c :: s => if escapeThese.contains c then '\\' :: c :: regexEscape s else c :: regexEscape s

/-- src/StringUtils.cc:116-123, the `while` loop of `tokenize`.  `fuel` bounds the number of
iterations; `none` means that it was not enough. -/
def tokLoop (p : Char → Bool) (s : List Char) :
    Nat → Option Nat → Option Nat → List (List Char) → Option (Res (List (List Char)))
  | 0, _, _, _ => none
  | fuel + 1, lastPos, pos, acc =>
    if pos.isSome || lastPos.isSome then
      match substr s lastPos pos with
      | .ok t =>
        let lastPos := findFrom (fun c => !p c) s pos
        let pos := findFrom p s lastPos
        tokLoop p s fuel lastPos pos (acc ++ [t])
      | .throws => some .throws
      | .ub => some .ub
    else some (.ok acc)

/-- src/StringUtils.cc:108-125 `tokenize`. -/
def tokenize (fuel : Nat) (s delims : List Char) : Option (Res (List (List Char))) :=
  let lastPos := findFrom (fun c => !delims.contains c) s (some 0)
  let pos := findFrom delims.contains s lastPos
  tokLoop delims.contains s fuel lastPos pos []

/-- include/fimex/StringUtils.h:109-113, the loop of `split_any`. -/
def splitLoop (p : Char → Bool) (s : List Char) :
    Nat → Nat → List (List Char) → Option (Res (List (List Char)))
  | 0, _, _ => none
  | fuel + 1, previous, acc =>
    match findFrom p s (some previous) with
    | some current =>
      match substr s (some previous) (some current) with
      | .ok t => splitLoop p s fuel (current + 1) (acc ++ [t])
      | .throws => some .throws
      | .ub => some .ub
    | none =>
      match substr s (some previous) none with
      | .ok t => some (.ok (acc ++ [t]))
      | .throws => some .throws
      | .ub => some .ub

/-- include/fimex/StringUtils.h:105-115, src/StringUtils.cc:127-132 `split_any`. -/
def splitAny (fuel : Nat) (s delims : List Char) : Option (Res (List (List Char))) :=
  splitLoop delims.contains s fuel 0 []

/-- include/fimex/StringUtils.h:52-58, the loop of `join_formatted`: `current` is the element not
yet written. -/
def joinLoop (delim : List Char) : List Char → List (List Char) → List Char → List Char
  | current, [], buf => buf ++ current
  | current, t :: ts, buf => joinLoop delim t ts (buf ++ current ++ delim)

/-- include/fimex/StringUtils.h:46-60, 69-73 `join` (formatting of the elements is the identity on
text). -/
def join (ts : List (List Char)) (delim : List Char) : List Char :=
  match ts with
  | [] => []
  | t :: ts => joinLoop delim t ts []

/-! ## Indexed string list -/

/-- include/fimex/StringUtils.h:146-170 `StringListBuilder`. -/
structure StringList where
  indexes : String → Option Nat
  strings : List String

/-- src/StringUtils.cc:134-140. -/
def StringList.empty (noIndex0 : Bool) : StringList where
  indexes := fun _ => none
  strings := if noIndex0 then [""] else []

/-- src/StringUtils.cc:146-147, `indexes_[strings[i]] = i` for `i ≥ i0`. -/
def indexFrom : List String → Nat → (String → Option Nat) → String → Option Nat
  | [], _, m => m
  | s :: ss, i, m => indexFrom ss (i + 1) (fun k => if k = s then some i else m k)

/-- src/StringUtils.cc:142-148. -/
def StringList.ofVector (ss : List String) (noIndex0 : Bool) : StringList where
  indexes := if noIndex0 then indexFrom (ss.drop 1) 1 (fun _ => none) else indexFrom ss 0 (fun _ => none)
  strings := ss

/-- src/StringUtils.cc:150-161 `add`. -/
def StringList.add (l : StringList) (key : String) : StringList × Nat :=
  match l.indexes key with
  | none =>
    let idx := l.strings.length
    ({ indexes := fun k => if k = key then some idx else l.indexes k, strings := l.strings ++ [key] }, idx)
  | some i => (l, i)

/-- Several additions, with the returned indices. -/
def StringList.addAll (l : StringList) : List String → StringList × List Nat
  | [] => (l, [])
  | k :: ks =>
    let r := l.add k
    let rest := r.1.addAll ks
    (rest.1, r.2 :: rest.2)

end Fimex.Text
