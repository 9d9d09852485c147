import Verif.Slice.Spec
import Verif.Extractor.Model

/-! # Specification vocabulary for the extractor -/

namespace Fimex.Extractor

/-- Component-wise selection: index `j` in the reduced variable is index `pick sel j` in the source. -/
def pick : List (List Nat) → List Nat → List Nat
  | s :: ss, i :: is => s.getD i 0 :: pick ss is
  | _, _ => []

/-- The source positions, in order, which the caller asks for in one dimension. -/
def DimReq.wanted (d : DimReq) : List Nat :=
  match d.sel with
  | none => List.range' d.start d.size
  | some ps => (ps.drop d.start).take d.size

/-- The request is inside the (reduced) dimension, and the reduced dimension inside the source. For a
dimension reduced to at least one position the request must not be empty
(`C17_empty_request_reads_data`). -/
def DimReq.Valid (d : DimReq) : Prop :=
  d.length < two64 ∧
  match d.sel with
  | none => d.start + d.size ≤ d.length
  | some [] => d.start = 0 ∧ d.size = 0
  | some ps => 1 ≤ d.size ∧ d.start + d.size ≤ ps.length ∧ ∀ p ∈ ps, p < d.length

/-- A run of consecutive numbers. -/
def Contig (l : List Nat) : Prop := l = List.range' (l.headD 0) l.length

instance (l : List Nat) : Decidable (Contig l) := inferInstanceAs (Decidable (_ = _))

end Fimex.Extractor
