import Verif.Text.Model
import Mathlib.Algebra.Order.Field.Basic

/-!
# Dotted number lists

Model of `include/fimex/TokenizeDotted.h:41-76`, `tokenizeDotted`.  Numbers are elements of an ordered
field with exact arithmetic (no rounding, no overflow, no NaN); the conversion `string2type` is a
parameter.
-/

namespace Fimex.Text

variable {K : Type} [Field K] [LinearOrder K]

/-- include/fimex/TokenizeDotted.h:58. -/
def direction (dist : K) : K := if 0 < dist then 1 else -1

/-- The literal `1.e-5` of include/fimex/TokenizeDotted.h:62. -/
def tol : K := 1 / 100000

/-- include/fimex/TokenizeDotted.h:63-66.  `none`: more than `fuel` iterations. -/
def expandLoop (after dist : K) : Nat → K → List K → Option (List K)
  | 0, _, _ => none
  | fuel + 1, curVal, vals =>
    if (curVal - after) * direction dist < direction dist * dist * -tol then
      expandLoop after dist fuel (curVal + dist) (vals ++ [curVal])
    else some vals

/-- Outcome of `vals[i]` from behind: `vals[currentPos - 1 - k]`. -/
def fromBack (vals : List K) (k : Nat) : Res K :=
  match vals.reverse[k]? with
  | some v => .ok v
  | none => .ub

/-- include/fimex/TokenizeDotted.h:47-74, the `for` loop over the tokens.  After a final `...` the
iterator is at the end, the increment of the `for` loop moves it behind the end and it is dereferenced
there: undefined behaviour. -/
def dottedLoop (parse : List Char → Res K) (fuel : Nat) : List (List Char) → List K → Option (Res (List K))
  | [], vals => some (.ok vals)
  | tok :: toks, vals =>
    match trim tok " \t\n\r".toList with
    | .throws => some .throws
    | .ub => some .ub
    | .ok current =>
      if current = "...".toList then
        if vals.length < 2 then some .throws
        else
          match fromBack vals 0, fromBack vals 1, toks with
          | .ok last, .ok last2, after :: toks =>
            match parse after with
            | .throws => some .throws
            | .ub => some .ub
            | .ok afterDotVal =>
              match expandLoop afterDotVal (last - last2) fuel (last + (last - last2)) vals with
              | none => none
              | some vals => dottedLoop parse fuel toks (vals ++ [afterDotVal])
          | _, _, _ => some .ub
      else
        match parse current with
        | .throws => some .throws
        | .ub => some .ub
        | .ok v => dottedLoop parse fuel toks (vals ++ [v])

/-- include/fimex/TokenizeDotted.h:41-76 `tokenizeDotted`. -/
def tokenizeDotted (parse : List Char → Res K) (fuel : Nat) (s delims : List Char) : Option (Res (List K)) :=
  match tokenize fuel s delims with
  | none => none
  | some (.ok toks) => dottedLoop parse fuel toks []
  | some .throws => some .throws
  | some .ub => some .ub

end Fimex.Text
