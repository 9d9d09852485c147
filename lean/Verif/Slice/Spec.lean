/-!
# Multi-indices: specification vocabulary

Independent of the slicing code: a shape is a list of lengths with the fastest varying dimension
first; a multi-index is a list of the same length.
-/

namespace Fimex

/-- `idx` is a multi-index inside `shape`. -/
def InShape : List Nat → List Nat → Prop
  | [], [] => True
  | n :: ns, i :: is => i < n ∧ InShape ns is
  | _, _ => False

/-- Flat position of a multi-index, first dimension fastest. -/
def pos : List Nat → List Nat → Nat
  | n :: ns, i :: is => i + n * pos ns is
  | _, _ => 0

/-- All multi-indices of a shape, first dimension fastest. -/
def cells : List Nat → List (List Nat)
  | [] => [[]]
  | n :: ns => (cells ns).flatMap fun is => (List.range n).map fun i => i :: is

/-- Component-wise sum of multi-indices. -/
def addIdx (a b : List Nat) : List Nat := List.zipWith (· + ·) a b

/-- The region `[start, start+size)` lies inside `shape` (and ranks agree). -/
def RegionIn : List Nat → List Nat → List Nat → Prop
  | [], [], [] => True
  | n :: ns, s :: ss, z :: zs => s + z ≤ n ∧ RegionIn ns ss zs
  | _, _, _ => False

instance decInShape : (shape idx : List Nat) → Decidable (InShape shape idx)
  | [], [] => .isTrue trivial
  | n :: ns, i :: is =>
    match Nat.decLt i n, decInShape ns is with
    | .isTrue h, .isTrue h' => .isTrue ⟨h, h'⟩
    | .isFalse h, _ => .isFalse fun x => h x.1
    | _, .isFalse h => .isFalse fun x => h x.2
  | [], _ :: _ => .isFalse id
  | _ :: _, [] => .isFalse id

instance decRegionIn : (shape start size : List Nat) → Decidable (RegionIn shape start size)
  | [], [], [] => .isTrue trivial
  | n :: ns, s :: ss, z :: zs =>
    match Nat.decLe (s + z) n, decRegionIn ns ss zs with
    | .isTrue h, .isTrue h' => .isTrue ⟨h, h'⟩
    | .isFalse h, _ => .isFalse fun x => h x.1
    | _, .isFalse h => .isFalse fun x => h x.2
  | [], [], _ :: _ => .isFalse id
  | [], _ :: _, _ => .isFalse id
  | _ :: _, [], _ => .isFalse id
  | _ :: _, _ :: _, [] => .isFalse id

end Fimex
