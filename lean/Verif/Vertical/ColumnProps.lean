import Verif.Vertical.Column

/-!
# Columns of vertical converters (C134): theorems
-/

namespace Fimex.Column
open Fimex.SB Fimex.Shapes

/-- Length of a dimension; one that is not known has 1. -/
def len (c : Cdm) (d : String) : Nat := (c.dimLength d).getD 1

/-- Specification: start and size of the dimension `d` in the column at `x`, `y`, `t`. -/
def region (c : Cdm) (a : Adapter) (x y t : Nat) (d : String) : Nat × Nat :=
  if a.t = some d then (a.pos.getD t, 1) else if a.y = some d then (y, 1) else if a.x = some d then (x, 1) else (0, len c d)

/-- The position is in the dimension, if there is one. -/
def Inside (c : Cdm) (d : Option String) (i : Nat) : Prop := ∀ n, d = some n → i < len c n

theorem setOne_ok {c : Cdm} {shape : List String} {reg : String → Nat × Nat} {b : Builder} (hn : shape.Nodup) (h1 : Asks shape reg b) (h2 : Within shape (len c) b)
    {d : Option String} (hd : ∀ n, d = some n → n ∈ shape) {i : Nat} (hi : i + 1 < two64) :
    (Inside c d i ∧ ∃ b', setOne b d i = .ok b' ∧ Asks shape (fun n => if d = some n then (i, 1) else reg n) b' ∧ Within shape (len c) b') ∨
    (¬ Inside c d i ∧ setOne b d i = .throws) := by
  unfold setOne Inside
  cases d with
  | none => left; exact ⟨by simp, b, rfl, by simpa using h1, h2⟩
  | some n =>
    have hwa : wadd i 1 = i + 1 := Nat.mod_eq_of_lt hi
    rcases set_ok h1 h2 hn (hd n rfl) i 1 with ⟨l1, e1⟩ | ⟨l1, b', e1, k1, k2⟩
    · right
      simp only [e1]
      rw [hwa] at l1
      exact ⟨fun h => by have := h n rfl; omega, trivial⟩
    · left
      simp only [e1]
      rw [hwa] at l1
      refine ⟨fun m hm => by cases hm; omega, b', rfl, ?_, k2⟩
      have : (fun m => if some n = some m then (i, 1) else reg m) = Function.update reg n (i, 1) := by
        funext m
        by_cases hm : n = m
        · subst hm; simp
        · rw [Function.update_of_ne (fun h => hm h.symm), if_neg (by simpa using hm)]
      rw [this]
      exact k1

theorem dimOf_mem {shape : List String} {ax : Option (List String)} {d : Option String} (h : dimOf shape ax = .ok d) :
    (∀ n, d = some n → n ∈ shape) ∧ ∀ n, d = some n ↔ n ∈ shape ∧ ∃ r, ax = some (n :: r) := by
  unfold dimOf at h
  match ax, h with
  | none, h => cases h; simp
  | some (a :: r), h =>
    simp only [Res.ok.injEq] at h
    by_cases ha : a ∈ shape
    · rw [if_pos ha] at h
      subst h
      refine ⟨fun n hn => by cases hn; exact ha, fun n => ⟨fun hn => by cases hn; exact ⟨ha, r, rfl⟩, ?_⟩⟩
      rintro ⟨_, r', e⟩
      cases e; rfl
    · rw [if_neg ha] at h
      subst h
      refine ⟨by simp, fun n => ⟨by simp, ?_⟩⟩
      rintro ⟨hm, r', e⟩
      cases e
      exact absurd hm ha

theorem adapter_dims {c : Cdm} {unlimited : String → Bool} {shape : List String} {x y t : Option (List String)} {p : Nat} {a : Adapter}
    (h : adapter c unlimited shape x y t p = .ok a) : dimOf shape x = .ok a.x ∧ dimOf shape y = .ok a.y ∧ dimOf shape t = .ok a.t ∧
      (a.pos = match a.t with | none => none | some d => if unlimited d ∧ p ≠ notSet then some p else none) ∧ ∀ d, a.t = some d → ∃ n, c.dimLength d = some n := by
  unfold adapter at h
  cases hx : dimOf shape x with
  | throws => rw [hx] at h; cases h
  | ub => rw [hx] at h; cases h
  | ok dx =>
    cases hy : dimOf shape y with
    | throws => rw [hx, hy] at h; cases h
    | ub => rw [hx, hy] at h; cases h
    | ok dy =>
      cases ht : dimOf shape t with
      | throws => rw [hx, hy, ht] at h; cases h
      | ub => rw [hx, hy, ht] at h; cases h
      | ok dt =>
        rw [hx, hy, ht] at h
        simp only [Res.ok_bind] at h
        cases dt with
        | none => cases h; simp
        | some d =>
          simp only [getLength] at h
          cases hl : c.dimLength d with
          | none => rw [hl] at h; cases h
          | some n => rw [hl] at h; cases h; exact ⟨rfl, rfl, rfl, rfl, fun d' hd => by cases hd; exact ⟨n, hl⟩⟩

/-- **C134.** The dimensions of the column are the first ones of the axes, as far as the converter has them; the position of an unlimited time is the one given. -/
theorem C134_axes {c : Cdm} {unlimited : String → Bool} {shape : List String} {x y t : Option (List String)} {p : Nat} {a : Adapter}
    (h : adapter c unlimited shape x y t p = .ok a) : (∀ n, a.x = some n ↔ n ∈ shape ∧ ∃ r, x = some (n :: r)) ∧ (∀ n, a.y = some n ↔ n ∈ shape ∧ ∃ r, y = some (n :: r)) ∧
      (∀ n, a.t = some n ↔ n ∈ shape ∧ ∃ r, t = some (n :: r)) ∧
      (p + 1 < two64 → ∀ i, a.pos.getD i = if (∃ d, a.t = some d ∧ unlimited d = true) then p else i) := by
  obtain ⟨h1, h2, h3, h4, _⟩ := adapter_dims h
  refine ⟨(dimOf_mem h1).2, (dimOf_mem h2).2, (dimOf_mem h3).2, fun hp i => ?_⟩
  rw [h4]
  cases hd : a.t with
  | none => simp
  | some d =>
    have hne : p ≠ notSet := by
      intro e
      rw [e] at hp
      exact absurd hp (by decide)
    by_cases hu : unlimited d = true
    · simp [hu, hne]
    · simp [hu]

/-- **C134.** A column asks for exactly one position of the dimensions of the axes and for all of the others; it is an exception exactly if one of the positions is outside. -/
theorem C134_column {c : Cdm} {unlimited : String → Bool} {shape : List String} (hn : shape.Nodup) {ax ay at' : Option (List String)} {p : Nat} {a : Adapter}
    (h : adapter c unlimited shape ax ay at' p = .ok a) (x y t : Nat) (hx : x + 1 < two64) (hy : y + 1 < two64) (ht : t + 1 < two64) (hp : p + 1 < two64) :
    (Inside c a.x x ∧ Inside c a.y y ∧ Inside c a.t (a.pos.getD t) ∧ ∃ b, prepare c shape a x y t = .ok b ∧ getDimensionNames b.dimPos = .ok shape ∧
      ∀ d ∈ shape, getStartAndSize b d = .ok (region c a x y t d)) ∨
    (¬ (Inside c a.x x ∧ Inside c a.y y ∧ Inside c a.t (a.pos.getD t)) ∧ prepare c shape a x y t = .throws) := by
  obtain ⟨d1, d2, d3, _, _⟩ := adapter_dims h
  have hpos : a.pos.getD t + 1 < two64 := by
    rw [(C134_axes h).2.2.2 hp t]
    split_ifs <;> assumption
  obtain ⟨b, e, k1, k2⟩ := createSliceBuilder_ok c hn
  unfold prepare
  rw [e]
  simp only [Res.ok_bind]
  rcases setOne_ok hn k1 k2 (dimOf_mem d1).1 hx with ⟨i1, b1, e1, k1, k2⟩ | ⟨i1, e1⟩
  · rw [e1]
    simp only [Res.ok_bind]
    rcases setOne_ok hn k1 k2 (dimOf_mem d2).1 hy with ⟨i2, b2, e2, k1, k2⟩ | ⟨i2, e2⟩
    · rw [e2]
      simp only [Res.ok_bind]
      rcases setOne_ok hn k1 k2 (dimOf_mem d3).1 hpos with ⟨i3, b3, e3, k1, k2⟩ | ⟨i3, e3⟩
      · left
        refine ⟨i1, i2, i3, b3, e3, k1.names hn, fun d hd => ?_⟩
        rw [k1.get hn hd]
        rfl
      · right
        exact ⟨fun hh => i3 hh.2.2, e3⟩
    · right
      rw [e2]
      exact ⟨fun hh => i2 hh.2.1, rfl⟩
  · right
    rw [e1]
    exact ⟨fun hh => i1 hh.1, rfl⟩

/-- **C134.** The values of a column are those the converter has in the region of its position. -/
theorem C134_values {V : Type} {c : Cdm} {unlimited : String → Bool} {shape : List String} (hn : shape.Nodup) {ax ay at' : Option (List String)} {p : Nat} {a : Adapter}
    (h : adapter c unlimited shape ax ay at' p = .ok a) (x y t : Nat) (hx : x + 1 < two64) (hy : y + 1 < two64) (ht : t + 1 < two64) (hp : p + 1 < two64)
    (i1 : Inside c a.x x) (i2 : Inside c a.y y) (i3 : Inside c a.t (a.pos.getD t)) (get : Builder → Res (List V)) :
    ∃ b, (∀ d ∈ shape, getStartAndSize b d = .ok (region c a x y t d)) ∧ column c shape a get x y t = get b := by
  rcases C134_column hn h x y t hx hy ht hp with ⟨_, _, _, b, e, _, k⟩ | ⟨k, _⟩
  · refine ⟨b, k, ?_⟩
    unfold column
    rw [e]
    rfl
  · exact absurd ⟨i1, i2, i3⟩ k

/-- **C134.** A value is valid exactly if it is between the limits of its column, as far as there are limits. -/
theorem C134_valid {V : Type} [LinearOrder V] (c : Cdm) (shape : List String) (a : Adapter) (mx mn : Builder → Res (Option V)) (v : V) (x y t : Nat) (b : Builder)
    (hb : prepare c shape a x y t = .ok b) (hi lo : Option V) (h1 : mx b = .ok hi) (h2 : mn b = .ok lo) :
    isValid c shape a mx mn v x y t = .ok true ↔ (∀ h, hi = some h → v ≤ h) ∧ ∀ l, lo = some l → l ≤ v := by
  unfold isValid
  rw [hb]
  simp only [Res.ok_bind, h1, h2]
  cases hi <;> cases lo <;> simp

/-- **C134.** An axis without dimensions, as that of a scalar coordinate, is undefined. -/
theorem C134_scalar (c : Cdm) (unlimited : String → Bool) (shape : List String) (x y t : Option (List String)) (p : Nat) (h : x = some [] ∨ y = some [] ∨ t = some []) :
    adapter c unlimited shape x y t p = .ub := by
  have key : ∀ ax, dimOf shape ax = .ub ∨ ∃ d, dimOf shape ax = .ok d := by
    intro ax
    match ax with
    | none => exact .inr ⟨_, rfl⟩
    | some [] => exact .inl rfl
    | some (_ :: _) => exact .inr ⟨_, rfl⟩
  unfold adapter
  rcases key x with e | ⟨dx, e⟩
  · rw [e]; rfl
  · rw [e]
    simp only [Res.ok_bind]
    rcases key y with e2 | ⟨dy, e2⟩
    · rw [e2]; rfl
    · rw [e2]
      simp only [Res.ok_bind]
      rcases h with rfl | rfl | rfl
      · cases e
      · cases e2
      · rfl

/-! ## Simple axes -/

/-- Specification: the axis has one dimension, of that length; without axis it is 1. -/
def Simple (c : Cdm) (ax : Option (List String)) (n : Nat) : Prop := match ax with | none => n = 1 | some s => ∃ d, s = [d] ∧ c.dimLength d = some n

theorem sizeOf_ok (c : Cdm) (ax : Option (List String)) (n : Nat) : sizeOf c ax = .ok n ↔ Simple c ax n := by
  unfold sizeOf Simple
  match ax with
  | none => simp [eq_comm]
  | some [] => simp
  | some [d] =>
    simp only [getLength]
    cases h : c.dimLength d <;> simp [h]
  | some (_ :: _ :: _) => simp

theorem sizeOf_ne_ub (c : Cdm) (ax : Option (List String)) : sizeOf c ax ≠ .ub := by
  unfold sizeOf
  match ax with
  | none => simp
  | some [] => simp
  | some [d] =>
    simp only [getLength]
    cases h : c.dimLength d <;> simp
  | some (_ :: _ :: _) => simp

/-- **C134.** Sizes are found exactly if every axis there is has one known dimension, and are then their lengths; else it is an exception. -/
theorem C134_simple (c : Cdm) (unlimited : String → Bool) (x y t : Option (List String)) (z : List String) :
    (∀ s, simpleAxes c unlimited x y (some z) t = .ok s ↔ Simple c x s.nx ∧ Simple c y s.ny ∧ Simple c (some z) s.nz ∧ Simple c t s.nt ∧
      (s.unlimited = true ↔ ∃ d, t = some [d] ∧ unlimited d = true)) ∧ simpleAxes c unlimited x y (some z) t ≠ .ub := by
  have hu := sizeOf_ne_ub c
  have hs := sizeOf_ok c
  unfold simpleAxes
  simp only
  have ht : ∀ n, Simple c t n → ((match t with | some (d :: _) => unlimited d | _ => false) = true ↔ ∃ d, t = some [d] ∧ unlimited d = true) := by
    intro n hn
    match t, hn with
    | none, _ => simp
    | some s, ⟨d, e, _⟩ => subst e; simp
  cases ez : sizeOf c (some z) with
  | ub => exact absurd ez (hu _)
  | throws => exact ⟨fun s => ⟨fun h => (nomatch h), fun h => by rw [(hs _ _).2 h.2.2.1] at ez; cases ez⟩, fun h => nomatch h⟩
  | ok nz =>
    cases ex : sizeOf c x with
    | ub => exact absurd ex (hu _)
    | throws => exact ⟨fun s => ⟨fun h => (nomatch h), fun h => by rw [(hs _ _).2 h.1] at ex; cases ex⟩, fun h => nomatch h⟩
    | ok nx =>
      cases ey : sizeOf c y with
      | ub => exact absurd ey (hu _)
      | throws => exact ⟨fun s => ⟨fun h => (nomatch h), fun h => by rw [(hs _ _).2 h.2.1] at ey; cases ey⟩, fun h => nomatch h⟩
      | ok ny =>
        cases et : sizeOf c t with
        | ub => exact absurd et (hu _)
        | throws => exact ⟨fun s => ⟨fun h => (nomatch h), fun h => by rw [(hs _ _).2 h.2.2.2.1] at et; cases et⟩, fun h => nomatch h⟩
        | ok nt =>
          refine ⟨fun s => ?_, fun h => nomatch h⟩
          simp only [Res.ok_bind]
          constructor
          · intro h
            injection h with h
            subst h
            exact ⟨(hs _ _).1 ex, (hs _ _).1 ey, (hs _ _).1 ez, (hs _ _).1 et, ht nt ((hs _ _).1 et)⟩
          · rintro ⟨h1, h2, h3, h4, h5⟩
            rw [(hs _ _).2 h1] at ex
            rw [(hs _ _).2 h2] at ey
            rw [(hs _ _).2 h3] at ez
            rw [(hs _ _).2 h4] at et
            cases ex; cases ey; cases ez; cases et
            congr 1
            cases s
            simp only [Sizes.mk.injEq, true_and]
            simp only at h5 h4
            have := ht _ h4
            rw [← h5] at this
            exact Bool.eq_iff_iff.2 this

/-- **C134.** For a caller who takes the times from simple axes (none in the repository does), the column at a time is that of the time itself, whether time is unlimited or not. -/
theorem C134_times {c : Cdm} {unlimited : String → Bool} {shape : List String} {x y t : Option (List String)} {z : List String} {p : Nat} {a : Adapter} {s : Sizes}
    (h : adapter c unlimited shape x y t p = .ok a) (hs : simpleAxes c unlimited x y (some z) t = .ok s) (hp : p + 1 < two64) (i : Nat) (h1 : (times s p).1 ≤ i)
    (h2 : i < (times s p).2) : a.pos.getD i = i := by
  rw [(C134_axes h).2.2.2 hp i]
  obtain ⟨_, _, _, ht, hu⟩ := ((C134_simple c unlimited x y t z).1 s).1 hs
  split_ifs with hd
  · obtain ⟨d, hd, hd2⟩ := hd
    obtain ⟨_, r, hr⟩ := ((C134_axes h).2.2.1 d).1 hd
    subst hr
    obtain ⟨d', e, _⟩ := ht
    cases e
    have : s.unlimited = true := hu.2 ⟨d, rfl, hd2⟩
    unfold times at h1 h2
    rw [if_pos this] at h1 h2
    have hwa : wadd p 1 = p + 1 := Nat.mod_eq_of_lt hp
    rw [hwa] at h2
    simp only at h1
    omega
  · rfl

/-- **C134.** The times are all of the time axis, or the one given if it is unlimited. -/
theorem C134_range (s : Sizes) (p : Nat) (hp : p + 1 < two64) (i : Nat) : ((times s p).1 ≤ i ∧ i < (times s p).2) ↔ if s.unlimited then i = p else i < s.nt := by
  have hwa : wadd p 1 = p + 1 := Nat.mod_eq_of_lt hp
  unfold times
  by_cases h : s.unlimited = true
  · rw [if_pos h, if_pos h, hwa]
    simp only
    omega
  · rw [if_neg h, if_neg h]
    simp

/-- A file with unlimited time. -/
def sampleCdm : Cdm := ⟨fun _ => none, fun d => if d = "x" then some 4 else if d = "y" then some 3 else if d = "k" then some 5 else if d = "time" then some 2 else none⟩

/-- The column at the second time, which is the one given. -/
example : ∃ a b, adapter sampleCdm (· == "time") ["x", "y", "k", "time"] (some ["x"]) (some ["y"]) (some ["time"]) 1 = .ok a ∧
    prepare sampleCdm ["x", "y", "k", "time"] a 3 2 0 = .ok b ∧ b.start = [3, 2, 0, 1] ∧ b.size = [1, 1, 5, 1] ∧
    prepare sampleCdm ["x", "y", "k", "time"] a 4 2 0 = .throws :=
  ⟨⟨some "x", some "y", some "time", some 1⟩,
    ⟨[("x", 0), ("y", 1), ("k", 2), ("time", 3)], ["time", "y", "x"], [4, 3, 5, 2], [false, false, false, false], [3, 2, 0, 1], [1, 1, 5, 1]⟩, by decide +kernel⟩

/-- Sizes, and times of an unlimited dimension. -/
example : simpleAxes sampleCdm (· == "time") (some ["x"]) none (some ["k"]) (some ["time"]) = .ok ⟨4, 1, 5, 2, true⟩ ∧ times ⟨4, 1, 5, 2, true⟩ 1 = (1, 2) := ⟨rfl, rfl⟩

end Fimex.Column
