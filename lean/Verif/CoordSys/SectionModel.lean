import Verif.CoordSys.ChangeModel
import Verif.Tables.Methods
import Mathlib.Algebra.Order.Floor.Ring
import Mathlib.Algebra.Order.Field.Basic

/-!
# Cross sections

Model of `changeProjectionToCrossSections` (`src/CDMInterpolator.cc:492-614`): points along the lines of the cross sections, and what is added
to the dataset to tell the cross sections apart.

Numbers are those of an ordered field, without NaN and infinities.  The conversions by the projection library are parameters; they give finite numbers
or raise an error.  A name is a list of characters.  Assertions are left out.
-/

namespace Fimex.Sections

open Cdm

section Points

variable {K : Type} [Field K] [LinearOrder K] [IsStrictOrderedRing K] [FloorRing K]

/-- include/fimex/CrossSectionDefinition.h:39-55: name, longitudes and latitudes. -/
structure Section (K : Type) where
  name : List Char
  coords : List (K × K)

/-- `convertFromLonLat` and `convertToLonLat` of a projection, for lists of points. -/
structure Conv (K : Type) where
  fromLonLat : List (K × K) → Res (List (K × K))
  toLonLat : List (K × K) → Res (List (K × K))

/-- src/CDMInterpolator.cc:545-548: the number of points for one leg.  The conversion to `size_t` must be possible. -/
def legNum (dx dy : K) (p q : K × K) : Res ℕ :=
  let m := max |(q.1 - p.1) / dx| |(q.2 - p.2) / dy|
  if ⌊m⌋ < 2 ^ 64 then .ok ⌊m⌋.toNat else .ub

/-- src/CDMInterpolator.cc:549-564: the points of one leg in the projection. -/
def legPart (first : Bool) (p q : K × K) (num : ℕ) : List (K × K) :=
  (if first then [p] else []) ++
    (List.range' 1 (num - 1)).map (fun j : ℕ => (p.1 + j * (q.1 - p.1) / num, p.2 + j * (q.2 - p.2) / num)) ++ [q]

/-- src/CDMInterpolator.cc:540-569: one leg; `vector::at` of the results of the conversion. -/
def leg (conv : Conv K) (dx dy : K) (first : Bool) (a b : K × K) : Res (List (K × K)) := do
  let ps ← conv.fromLonLat [a, b]
  match ps with
  | p :: q :: _ => do
    let n ← legNum dx dy p q
    conv.toLonLat (legPart first p q n)
  | _ => .throws

/-- src/CDMInterpolator.cc:539-570: all legs from the second coordinate on. -/
def legs (conv : Conv K) (dx dy : K) : Bool → K × K → List (K × K) → Res (List (K × K))
  | _, _, [] => .ok []
  | first, a, b :: l => do
    let ps ← leg conv dx dy first a b
    let r ← legs conv dx dy false b l
    .ok (ps ++ r)

/-- src/CDMInterpolator.cc:533-571: the points of one cross section. -/
def sectionPoints (conv : Conv K) (dx dy : K) : List (K × K) → Res (List (K × K))
  | [] => .ok []
  | [a] => .ok [a]
  | a :: l => legs conv dx dy true a l

/-- What is gathered over the cross sections. -/
structure Gathered (K : Type) where
  points : List (K × K)
  starts : List ℕ
  names : List (List Char)
  maxLen : ℕ

/-- src/CDMInterpolator.cc:524-573. -/
def gather (conv : Conv K) (dx dy : K) : List (Section K) → Gathered K → Res (Gathered K)
  | [], g => .ok g
  | s :: l, g =>
    if s.coords = [] then gather conv dx dy l g
    else do
      let ps ← sectionPoints conv dx dy s.coords
      gather conv dx dy l ⟨g.points ++ ps, g.starts ++ [g.points.length], g.names ++ [s.name], max g.maxLen (s.name.length + 1)⟩

/-- src/CDMInterpolator.cc:513-522: the steps of the axes, from their first two values. -/
def axisSteps (xs ys : List K) : Res (K × K) :=
  match xs, ys with
  | x0 :: x1 :: _, y0 :: y1 :: _ => if x1 - x0 = 0 ∨ y1 - y0 = 0 then .throws else .ok (x1 - x0, y1 - y0)
  | _, _ => .throws

end Points

/-! ## What is added to the dataset -/

/-- `string::replace(pos, count, text)`. -/
def replaceAt (pos count : ℕ) (text s : List Char) : List Char := s.take pos ++ text ++ s.drop (pos + count)

/-- src/CDMInterpolator.cc:584-589: the names, from the one with number `i` on. -/
def placeNames (maxLen : ℕ) : ℕ → List (List Char) → List Char → List Char
  | _, [], s => s
  | i, n :: l, s => placeNames maxLen (i + 1) l (replaceAt (i * maxLen) (min (maxLen - 1) n.length) n s)

/-- src/CDMInterpolator.cc:584-589: all names in one text. -/
def namesText (maxLen : ℕ) (names : List (List Char)) : List Char :=
  placeNames maxLen 0 names (List.replicate (maxLen * names.length) (Char.ofNat 0))

/-- Conversion of `size_t` to `int`. -/
def toInt (n : ℕ) : ℤ := (n : ℤ).bmod (2 ^ 32)

/-- src/CDMInterpolator.cc:600-606: first and last position of each cross section.  Without cross sections `at` raises an error. -/
def bounds : List ℕ → ℕ → Res (List ℤ)
  | [], _ => .throws
  | [s], n => .ok [toInt s, toInt (n - 1)]
  | s :: t :: l, n => do
    let r ← bounds (t :: l) n
    .ok (toInt s :: toInt (t - 1) :: r)

/-- What is taken from elsewhere: data of texts and integers, values of text attributes. -/
structure Make (P V : Type) where
  text : List Char → P
  ints : List ℤ → P
  value : String → V

variable {K P V CS : Type}

/-- Calls one after the other; the dataset is kept as it is when one fails. -/
def andThen {α β : Type} (r : CDM P V CS × Res α) (f : CDM P V CS → α → CDM P V CS × Res β) : CDM P V CS × Res β :=
  match r with
  | (c, .ok a) => f c a
  | (c, .throws) => (c, .throws)
  | (c, .ub) => (c, .ub)

/-- src/CDMInterpolator.cc:574-609: dimensions, variables and attributes. -/
def addSections (M : Make P V) (g : Gathered K) (c : CDM P V CS) : CDM P V CS × Res Unit :=
  andThen (addDimension c ⟨"two", 2, false⟩) fun c _ =>
  andThen (addDimension c ⟨"nvcross", g.names.length, false⟩) fun c _ =>
  andThen (addDimension c ⟨"nvcross_strlen", g.maxLen, false⟩) fun c _ =>
  andThen (addVariable c ⟨"vcross_name", ["nvcross_strlen", "nvcross"], M.text (namesText g.maxLen g.names)⟩) fun c _ =>
  andThen (addAttribute c "vcross_name" ⟨"bounds", M.value "vcross_bnds"⟩) fun c _ =>
  andThen (c, bounds g.starts g.points.length) fun c b =>
  andThen (addVariable c ⟨"vcross_bnds", ["two", "nvcross"], M.ints b⟩) fun c _ =>
  addAttribute c "vcross_bnds"
    ⟨"description", M.value "start- and end-position (included) in lat- and lon-dimensions for each vert. cross-section"⟩

/-- src/CDMInterpolator.cc:457-490 `changeProjection` to longitudes and latitudes: whether a method is used or raises an error. -/
def pointMethod : Tables.Method → Bool
  | .nearestNeighbor | .bilinear | .bicubic => true
  | _ => false

/-- src/CDMInterpolator.cc:492-614 `changeProjectionToCrossSections`, for the values `xs` and `ys` of the axes of the first coordinate system.  The
result is the dataset before the change of the grid, and the points that the grid is changed to. -/
def crossSections [Field K] [LinearOrder K] [IsStrictOrderedRing K] [FloorRing K] (M : Make P V) (conv : Conv K) (xs ys : List K) (method : Tables.Method)
    (l : List (Section K)) (c : CDM P V CS) : CDM P V CS × Res (List (K × K)) :=
  andThen (c, axisSteps xs ys) fun c d =>
  andThen (c, gather conv d.1 d.2 l ⟨[], [], [], 80⟩) fun c g =>
  andThen (addSections M g c) fun c _ =>
  (c, if pointMethod method then .ok g.points else .throws)

end Fimex.Sections
