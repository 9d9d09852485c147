import Verif.Scale.Model
import Mathlib.Tactic.Linarith
import Mathlib.Tactic.FieldSimp
import Mathlib.Tactic.Ring
import Mathlib.Algebra.Order.Ring.Rat
import Mathlib.Data.Rat.Floor

/-! # Lemmas on rounding, integer ranges and element-wise conversion -/

namespace Fimex.Scale

variable {K : Type} [Field K] [LinearOrder K] [IsStrictOrderedRing K] [FloorRing K]

/-- The types used by the library have at least one bit. -/
def DType.WF : DType → Prop
  | .int b _ => 1 ≤ b
  | .real => True

theorem hi_eq (b : Nat) (s : Bool) (hb : 1 ≤ b) : hi b s = lo b s + 2 ^ b - 1 := by
  obtain ⟨n, rfl⟩ : ∃ n, b = n + 1 := ⟨b - 1, by omega⟩
  cases s <;> simp only [hi, lo, if_true, Bool.false_eq_true, if_false, Nat.add_sub_cancel, pow_succ]
  · omega
  · omega

theorem wrap_eq {b : Nat} {s : Bool} {z : Int} (hb : 1 ≤ b) (h1 : lo b s ≤ z) (h2 : z ≤ hi b s) :
    wrap b s z = z := by
  rw [hi_eq b s hb] at h2
  unfold wrap
  rw [Int.emod_eq_of_lt (by omega) (by omega)]
  omega

theorem lround_intCast (z : Int) : lround (z : K) = z := by
  unfold lround
  have h2 : ⌊(1 / 2 : K)⌋ = 0 := by
    rw [Int.floor_eq_zero_iff]; constructor <;> norm_num
  split
  · rw [Int.floor_intCast_add, h2]; omega
  · rw [← Int.cast_neg, Int.floor_intCast_add, h2]; omega

theorem trunc_intCast (z : Int) : trunc (z : K) = z := by
  unfold trunc
  split
  · simp
  · rw [← Int.cast_neg, Int.floor_intCast]; omega

theorem abs_sub_lround (x : K) : |x - (lround x : K)| ≤ 1 / 2 := by
  unfold lround
  split
  · have h1 := Int.floor_le (x + 1 / 2)
    have h2 := Int.lt_floor_add_one (x + 1 / 2)
    rw [abs_le]; constructor <;> linarith
  · have h1 := Int.floor_le (-x + 1 / 2)
    have h2 := Int.lt_floor_add_one (-x + 1 / 2)
    rw [abs_le]; push_cast; constructor <;> linarith

/-- `z` is a value of the integer type; types wider than 32 bits only keep values that survive the
32 bit detour of `round`. -/
def Fits (b : Nat) (s : Bool) (z : Int) : Prop :=
  lo b s ≤ z ∧ z ≤ hi b s ∧ (b ≤ 32 ∨ lo 32 true ≤ z ∧ z ≤ hi 32 true)

theorem wrap_wrap {b : Nat} (s : Bool) (hb : b ≤ 32) (z : Int) :
    wrap b s (wrap 32 true z) = wrap b s z := by
  unfold wrap
  congr 1
  have hd : (2 ^ b : Int) ∣ 2 ^ 32 := pow_dvd_pow 2 hb
  rw [show (z - lo 32 true) % 2 ^ 32 + lo 32 true - lo b s =
    (z - lo 32 true) % 2 ^ 32 + (lo 32 true - lo b s) by ring, Int.add_emod,
    Int.emod_emod_of_dvd _ hd, ← Int.add_emod]
  congr 1; ring

theorem castRound_int {b : Nat} {s : Bool} (hb : 1 ≤ b) {x : K} (h : Fits b s (lround x)) :
    castRound (.int b s) (some x) = .ok (some ((lround x : Int) : K)) := by
  obtain ⟨h1, h2, h3⟩ := h
  have h5 : lo 64 true ≤ lround x ∧ lround x ≤ hi 64 true := by
    rcases h3 with h3 | ⟨h3, h4⟩
    · have : (2 : Int) ^ b ≤ 2 ^ 32 := pow_le_pow_right₀ (by norm_num) h3
      have : (2 : Int) ^ (b - 1) ≤ 2 ^ 32 := pow_le_pow_right₀ (by norm_num) (by omega)
      cases s <;> simp only [lo, hi, if_true, Bool.false_eq_true, if_false] at h1 h2 ⊢ <;> omega
    · simp only [lo, hi, if_true] at h3 h4 ⊢; omega
  simp only [castRound, if_pos h5]
  rcases h3 with h3 | ⟨h3, h4⟩
  · rw [wrap_wrap s h3, wrap_eq hb h1 h2]
  · rw [wrap_eq (by norm_num) h3 h4, wrap_eq hb h1 h2]

theorem mapM_ok {α β : Type} (f : α → Res β) (R : α → β → Prop) :
    ∀ (l : List α), (∀ a ∈ l, ∃ b, f a = .ok b ∧ R a b) →
      ∃ r, l.mapM f = .ok r ∧ List.Forall₂ R l r
  | [], _ => ⟨[], rfl, .nil⟩
  | a :: l, h => by
    obtain ⟨b, hb, hR⟩ := h a (by simp)
    obtain ⟨r, hr, hF⟩ := mapM_ok f R l fun x hx => h x (by simp [hx])
    exact ⟨b :: r, by simp [List.mapM_cons, hb, hr], .cons hR hF⟩

theorem mapM_eq {α β : Type} (f : α → Res β) (g : α → β) (l : List α)
    (h : ∀ a ∈ l, f a = .ok (g a)) : l.mapM f = .ok (l.map g) := by
  induction l with
  | nil => rfl
  | cons a l ih => simp [List.mapM_cons, h a (by simp), ih fun x hx => h x (by simp [hx])]

/-- A stored value of the type: any number or NaN for floating point types, an integer within the
range for integer types. -/
def ValidVal : DType → Option K → Prop
  | .real, _ => True
  | .int b s, x => ∃ z : Int, x = some (z : K) ∧ lo b s ≤ z ∧ z ≤ hi b s

theorem staticCast_valid {t : DType} {x : Option K} (h : ValidVal t x) : staticCast t x = .ok x := by
  cases t with
  | real => rfl
  | int b s =>
    obtain ⟨z, rfl, h1, h2⟩ := h
    simp [staticCast, trunc_intCast, h1, h2]

theorem feq_some {a b : Option K} : feq a b = true ↔ ∃ v, a = some v ∧ b = some v := by
  cases a <;> cases b <;> simp [feq]
  constructor <;> (intro h; exact h.symm)

end Fimex.Scale
