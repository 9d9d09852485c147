import Verif.Basic
import Mathlib.Data.List.Basic
import Mathlib.Tactic.Cases

/-!
# Names of data types

Model of `src/CDMDataType.cc:30-90` and `src/NcmlUtils.cc:38-131`, with C48.  Texts are lists of characters.
-/

namespace Fimex.Tables

/-! ## Model -/

/-- include/fimex/CDMDataType.h:35-49 `CDMDataType`. -/
inductive DataType where
  | nat | char | short | int | float | double | string | uchar | ushort | uint | int64 | uint64 | strings
deriving DecidableEq

/-- All of them. -/
def DataType.all : List DataType :=
  [.nat, .char, .short, .int, .float, .double, .string, .uchar, .ushort, .uint, .int64, .uint64, .strings]

/-- src/StringUtils.cc:51-58 `string2lowerCase` in the "C" locale. -/
def lower (s : List Char) : List Char := s.map Char.toLower

/-- src/CDMDataType.cc:48-69 `string2datatype`. -/
def string2datatype (s : List Char) : DataType :=
  let str := lower s
  if str = "double".toList then .double
  else if str = "float".toList then .float
  else if str = "int".toList ∨ str = "long".toList then .int
  else if str = "short".toList then .short
  else if str = "char".toList ∨ str = "byte".toList then .char
  else if str = "int64".toList then .int64
  else if str = "uint64".toList then .uint64
  else if str = "uint".toList then .uint
  else if str = "ushort".toList then .ushort
  else if str = "uchar".toList ∨ str = "ubyte".toList then .uchar
  else if str = "string".toList ∨ str = "String".toList then .string
  else if str = "strings".toList then .strings
  else .nat

/-- src/CDMDataType.cc:71-90 `datatype2string`. -/
def datatype2string : DataType → List Char
  | .double => "double".toList
  | .float => "float".toList
  | .int => "int".toList
  | .short => "short".toList
  | .char => "char".toList
  | .uchar => "uchar".toList
  | .ushort => "ushort".toList
  | .uint => "uint".toList
  | .int64 => "int64".toList
  | .uint64 => "uint64".toList
  | .string => "string".toList
  | .strings => "strings".toList
  | .nat => "NAT".toList

/-- `NcmlDataType`: name and `_Unsigned`. -/
structure Ncml where
  name : List Char
  unsigned : Bool
deriving DecidableEq

/-- src/NcmlUtils.cc:60-93 `datatype_cdm2ncml`. -/
def cdm2ncml : DataType → Ncml
  | .char => ⟨"byte".toList, false⟩
  | .short => ⟨"short".toList, false⟩
  | .int => ⟨"int".toList, false⟩
  | .int64 => ⟨"long".toList, false⟩
  | .uchar => ⟨"byte".toList, true⟩
  | .ushort => ⟨"short".toList, true⟩
  | .uint => ⟨"int".toList, true⟩
  | .uint64 => ⟨"long".toList, true⟩
  | .float => ⟨"float".toList, false⟩
  | .double => ⟨"double".toList, false⟩
  | .string => ⟨"string".toList, false⟩
  | .strings => ⟨"strings".toList, false⟩
  | .nat => ⟨[], false⟩

/-- src/NcmlUtils.cc:95-124 `datatype_ncml2cdm`. -/
def ncml2cdm (dt : Ncml) : DataType :=
  if dt = ⟨"byte".toList, false⟩ then .char
  else if dt = ⟨"short".toList, false⟩ then .short
  else if dt = ⟨"int".toList, false⟩ then .int
  else if dt = ⟨"long".toList, false⟩ then .int64
  else if dt = ⟨"byte".toList, true⟩ then .uchar
  else if dt = ⟨"short".toList, true⟩ then .ushort
  else if dt = ⟨"int".toList, true⟩ then .uint
  else if dt = ⟨"long".toList, true⟩ then .uint64
  else if dt = ⟨"float".toList, false⟩ then .float
  else if dt = ⟨"double".toList, false⟩ then .double
  else if dt = ⟨"string".toList, false⟩ ∨ dt = ⟨"String".toList, false⟩ then .string
  else if dt = ⟨"strings".toList, false⟩ then .strings
  else .nat

/-- src/NcmlUtils.cc:129-130: the types searched. -/
def ncmlTypes : List Ncml :=
  [⟨"byte".toList, false⟩, ⟨"short".toList, false⟩, ⟨"int".toList, false⟩, ⟨"long".toList, false⟩,
   ⟨"byte".toList, true⟩, ⟨"short".toList, true⟩, ⟨"int".toList, true⟩, ⟨"long".toList, true⟩,
   ⟨"char".toList, false⟩, ⟨"float".toList, false⟩, ⟨"double".toList, false⟩, ⟨"string".toList, false⟩,
   ⟨"String".toList, false⟩, ⟨"strings".toList, false⟩]

/-- src/NcmlUtils.cc:126-135: the same from name and flag. -/
def ncmlName2cdm (name : List Char) (unsigned : Bool) : DataType :=
  match ncmlTypes.find? fun f => f = ⟨name, unsigned⟩ with
  | some f => ncml2cdm f
  | none => .nat

/-! ## Specification -/

/-- The spellings of a type in configuration files (in lower case). -/
def spellings : DataType → List (List Char)
  | .double => ["double".toList]
  | .float => ["float".toList]
  | .int => ["int".toList, "long".toList]
  | .short => ["short".toList]
  | .char => ["char".toList, "byte".toList]
  | .uchar => ["uchar".toList, "ubyte".toList]
  | .ushort => ["ushort".toList]
  | .uint => ["uint".toList]
  | .int64 => ["int64".toList]
  | .uint64 => ["uint64".toList]
  | .string => ["string".toList]
  | .strings => ["strings".toList]
  | .nat => []

/-! ## Theorems -/

theorem ite_cases {α : Type} {p : Prop} [Decidable p] {a b x : α} (h : (if p then a else b) = x) :
    (p ∧ a = x) ∨ (¬ p ∧ b = x) := by
  by_cases hp : p
  · rw [if_pos hp] at h; exact Or.inl ⟨hp, h⟩
  · rw [if_neg hp] at h; exact Or.inr ⟨hp, h⟩

theorem mem_pair {α : Type} {l a b : α} (h : l = a ∨ l = b) : l ∈ [a, b] := by
  rcases h with h | h
  · exact h ▸ List.mem_cons_self
  · exact h ▸ List.mem_cons_of_mem _ List.mem_cons_self

theorem DataType.mem_all (t : DataType) : t ∈ DataType.all := by cases t <;> decide

/-- **C48.** The name of a type is read back as that type, for every type ("not a type" included); so no two types share
a name. -/
theorem C48_native_round_trip (t : DataType) : string2datatype (datatype2string t) = t := by cases t <;> decide

example : datatype2string .uint64 = "uint64".toList ∧ datatype2string .nat = "NAT".toList := by decide

theorem toLower_ne_S (c : Char) : c.toLower ≠ 'S' := by
  intro h
  unfold Char.toLower at h
  split at h
  · rename_i hc
    have h2 := congrArg Char.toNat h
    have h3 : (('S' : Char).toNat) = 83 := by decide
    rw [h3] at h2
    obtain ⟨v, hv⟩ := c
    simp only [Char.toNat] at h2
    have e1 : v.toNat ≥ 65 := by simpa [UInt32.le_iff_toNat_le] using hc.1
    have e2 : v.toNat ≤ 90 := by simpa [UInt32.le_iff_toNat_le] using hc.2
    rw [UInt32.toNat_add] at h2
    simp at h2
    omega
  · rename_i hc
    subst h
    exact hc (by decide)

/-- **C48.** A text is read as a type exactly if it is, apart from upper and lower case, one of its spellings; other
texts are no type. -/
theorem C48_native_reading (s : List Char) (t : DataType) (ht : t ≠ .nat) :
    string2datatype s = t ↔ lower s ∈ spellings t := by
  have hcap : lower s ≠ "String".toList := by
    intro h
    cases s with
    | nil => cases h
    | cons c s =>
      have : c.toLower = 'S' := by
        have := congrArg (fun l => l.head?) h
        simpa [lower] using this
      exact toLower_ne_S c this
  unfold string2datatype
  dsimp only
  generalize lower s = l at *
  constructor
  · intro h
    rcases ite_cases h with ⟨e, h⟩ | ⟨_, h⟩
    · subst h; exact List.mem_singleton.2 e
    rcases ite_cases h with ⟨e, h⟩ | ⟨_, h⟩
    · subst h; exact List.mem_singleton.2 e
    rcases ite_cases h with ⟨e, h⟩ | ⟨_, h⟩
    · subst h; exact mem_pair e
    rcases ite_cases h with ⟨e, h⟩ | ⟨_, h⟩
    · subst h; exact List.mem_singleton.2 e
    rcases ite_cases h with ⟨e, h⟩ | ⟨_, h⟩
    · subst h; exact mem_pair e
    rcases ite_cases h with ⟨e, h⟩ | ⟨_, h⟩
    · subst h; exact List.mem_singleton.2 e
    rcases ite_cases h with ⟨e, h⟩ | ⟨_, h⟩
    · subst h; exact List.mem_singleton.2 e
    rcases ite_cases h with ⟨e, h⟩ | ⟨_, h⟩
    · subst h; exact List.mem_singleton.2 e
    rcases ite_cases h with ⟨e, h⟩ | ⟨_, h⟩
    · subst h; exact List.mem_singleton.2 e
    rcases ite_cases h with ⟨e, h⟩ | ⟨_, h⟩
    · subst h; exact mem_pair e
    rcases ite_cases h with ⟨e, h⟩ | ⟨_, h⟩
    · subst h
      rcases e with e | e
      · exact List.mem_singleton.2 e
      · exact absurd e hcap
    rcases ite_cases h with ⟨e, h⟩ | ⟨_, h⟩
    · subst h; exact List.mem_singleton.2 e
    exact absurd h.symm ht
  · intro h
    cases t <;> simp only [spellings, List.mem_cons, List.not_mem_nil, or_false] at h
    all_goals first
      | (subst h; decide)
      | (rcases h with h | h <;> subst h <;> decide)

example : lower "Long".toList ∈ spellings .int ∧ string2datatype "Real".toList = .nat := by decide

/-- **C48.** The NcML name and flag of a type are read back as that type; "not a type" has an empty name. -/
theorem C48_ncml_round_trip (t : DataType) :
    ncml2cdm (cdm2ncml t) = t ∧ ncmlName2cdm (cdm2ncml t).name (cdm2ncml t).unsigned = t ∧
    ((cdm2ncml t).name = [] ↔ t = .nat) := by
  cases t <;> decide

/-- **C48.** Both ways of reading an NcML type agree; a name and flag that no type is written as is read as no type,
except that "String" is read like "string". -/
theorem C48_ncml_reading (dt : Ncml) :
    ncmlName2cdm dt.name dt.unsigned = ncml2cdm dt ∧
    ∀ t, t ≠ .nat → (ncml2cdm dt = t ↔ dt = cdm2ncml t ∨ (t = .string ∧ dt = ⟨"String".toList, false⟩)) := by
  constructor
  · unfold ncmlName2cdm
    have e : (⟨dt.name, dt.unsigned⟩ : Ncml) = dt := rfl
    rw [e]
    cases h : ncmlTypes.find? fun f => f = dt with
    | some f =>
      have := List.find?_some h
      simp only [decide_eq_true_eq] at this
      rw [this]
    | none =>
      rw [List.find?_eq_none] at h
      simp only [decide_eq_true_eq] at h
      unfold ncml2cdm
      dsimp only
      have hne : ∀ f ∈ ncmlTypes, dt ≠ f := fun f hf e => h f hf e.symm
      simp only [ncmlTypes, List.mem_cons, List.not_mem_nil, or_false, forall_eq_or_imp, forall_eq] at hne
      obtain ⟨a1, a2, a3, a4, a5, a6, a7, a8, a9, a10, a11, a12, a13, a14⟩ := hne
      rw [if_neg a1, if_neg a2, if_neg a3, if_neg a4, if_neg a5, if_neg a6, if_neg a7, if_neg a8, if_neg a10, if_neg a11,
        if_neg (by rintro (h | h); exacts [a12 h, a13 h]), if_neg a14]
  · intro t ht
    constructor
    · intro h
      unfold ncml2cdm at h
      iterate 10
        rcases ite_cases h with ⟨e, h⟩ | ⟨_, h⟩
        · subst h; exact Or.inl e
      rcases ite_cases h with ⟨e, h⟩ | ⟨_, h⟩
      · subst h
        rcases e with e | e
        · exact Or.inl e
        · exact Or.inr ⟨rfl, e⟩
      rcases ite_cases h with ⟨e, h⟩ | ⟨_, h⟩
      · subst h; exact Or.inl e
      exact absurd h.symm ht
    · rintro (h | ⟨rfl, h⟩)
      · subst h; cases t <;> decide
      · subst h; decide

/-- The NcML type "char" is known to the reader but read as no type. -/
theorem C48_ncml_char_is_no_type : (⟨"char".toList, false⟩ : Ncml) ∈ ncmlTypes ∧ ncmlName2cdm "char".toList false = .nat := by
  decide

end Fimex.Tables
