import Verif.Grib.Config
import Mathlib.Tactic.FieldSimp
import Mathlib.Tactic.Ring

/-!
# Lemmas on the configuration of the GRIB reader
-/

namespace Fimex.GribConfig
open Fimex.Tables Fimex.Cdm

variable {K : Type}

theorem bind_ok {α β : Type} {r : Res α} {f : α → Res β} {b : β} (h : r.bind f = .ok b) : ∃ a, r = .ok a ∧ f a = .ok b := by
  cases r with
  | ok a => exact ⟨a, rfl, h⟩
  | throws => cases h
  | ub => cases h

theorem foldlM_cons_ok {α β : Type} {f : β → α → Res β} {b b' : β} {a : α} {l : List α} (h : (a :: l).foldlM f b = .ok b') :
    ∃ c, f b a = .ok c ∧ l.foldlM f c = .ok b' := by
  rw [List.foldlM_cons] at h
  exact Res.bind_eq_ok.1 h

/-- The last text that is not empty. -/
def lastText (ts : List String) : Option String := (ts.filter (· ≠ "")).getLast?

theorem lastText_append (a b : List String) : lastText (a ++ b) = (lastText b).or (lastText a) := by
  unfold lastText
  rw [List.filter_append, List.getLast?_append]

/-- One setting. -/
theorem setLong_longs {E : Env K} {pc pc' : ParamConf} {key text k : String} (h : setLong E pc key text = .ok pc') :
    pc'.var = pc.var ∧ pc'.strings = pc.strings ∧
      ((key = k ∧ text ≠ "" ∧ ∃ vs, E.longs text = .ok vs ∧ pc'.longs k = some vs) ∨ ((key ≠ k ∨ text = "") ∧ pc'.longs k = pc.longs k)) := by
  unfold setLong at h
  by_cases ht : text = ""
  · rw [if_pos ht] at h
    cases h
    exact ⟨rfl, rfl, Or.inr ⟨Or.inr ht, rfl⟩⟩
  · rw [if_neg ht] at h
    obtain ⟨vs, h1, h2⟩ := bind_ok h
    cases h2
    refine ⟨rfl, rfl, ?_⟩
    by_cases hk : k = key
    · subst hk
      exact Or.inl ⟨rfl, ht, vs, h1, by simp⟩
    · exact Or.inr ⟨Or.inl (fun he => hk he.symm), by simp [hk]⟩

/-- Several settings: the last one for the key counts. -/
theorem settings {E : Env K} (l : List (String × String)) {pc pc' : ParamConf} (k : String)
    (h : l.foldlM (fun pc x => setLong E pc x.1 x.2) pc = .ok pc') :
    pc'.var = pc.var ∧ pc'.strings = pc.strings ∧
      (match lastText ((l.filter (·.1 = k)).map (·.2)) with
        | some t => ∃ vs, E.longs t = .ok vs ∧ pc'.longs k = some vs
        | none => pc'.longs k = pc.longs k) := by
  induction l generalizing pc with
  | nil => cases h; exact ⟨rfl, rfl, rfl⟩
  | cons x l ih =>
    obtain ⟨c, h1, h2⟩ := foldlM_cons_ok h
    obtain ⟨i1, i2, i3⟩ := ih h2
    obtain ⟨s1, s2, s3⟩ := setLong_longs (k := k) h1
    refine ⟨i1.trans s1, i2.trans s2, ?_⟩
    have e : (x :: l).filter (·.1 = k) = (if x.1 = k then [x] else []) ++ l.filter (·.1 = k) := by
      by_cases hx : x.1 = k <;> simp [hx]
    rw [e, List.map_append, lastText_append]
    rcases s3 with ⟨a, b, vs, c1, c2⟩ | ⟨a, b⟩
    · cases hl : lastText ((l.filter (·.1 = k)).map (·.2)) with
      | some t => rw [hl] at i3; exact i3
      | none =>
        rw [hl] at i3
        have : lastText ((if x.1 = k then [x] else []).map (·.2)) = some x.2 := by simp [a, lastText, b]
        rw [Option.none_or, this]
        exact ⟨vs, c1, i3.trans c2⟩
    · cases hl : lastText ((l.filter (·.1 = k)).map (·.2)) with
      | some t => rw [hl] at i3; exact i3
      | none =>
        rw [hl] at i3
        have : lastText ((if x.1 = k then [x] else []).map (·.2)) = none := by
          by_cases hx : x.1 = k
          · have ht : x.2 = "" := a.resolve_left (fun f => f hx)
            simp [hx, lastText, ht]
          · simp [hx, lastText]
        rw [Option.none_or, this]
        exact i3.trans b

/-- Settings from the attributes of an element. -/
theorem setLongs_eq (E : Env K) (e : Elem) (pc : ParamConf) (keys : List String) :
    setLongs E e pc keys = (keys.map fun k => (k, getXmlProp e.props k)).foldlM (fun pc x => setLong E pc x.1 x.2) pc := by
  unfold setLongs
  rw [List.foldlM_map]

/-- Settings from the children. -/
theorem extra_eq (E : Env K) (l : List Props) (pc : ParamConf) :
    l.foldlM (fun pc x => setLong E pc (getXmlProp x "name") (getXmlProp x "value")) pc =
      (l.map fun x => (getXmlProp x "name", getXmlProp x "value")).foldlM (fun pc x => setLong E pc x.1 x.2) pc := by
  rw [List.foldlM_map]

theorem toInt_eq (a b : ℤ) : toInt a = toInt b ↔ (2 ^ 32 : ℤ) ∣ a - b := by
  unfold toInt
  constructor
  · intro h
    have h' : (a + 2 ^ 31) % 2 ^ 32 = (b + 2 ^ 31) % 2 ^ 32 := by omega
    omega
  · intro h
    omega

end Fimex.GribConfig
