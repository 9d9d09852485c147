import Verif.Processor.RotateModel
import Verif.CoordSys.VecProps

/-!
# C106: rotated vectors and directions
-/

namespace Fimex.Rotate

open Cdm Vectors Interp
open Cf (Lib)
open Fill (forN writeAt)

variable {V CS K D Pr : Type}

/-! ## The fields of coordinates -/

/-- **C106.** The matrix to latitude and longitude is asked for at all grid points: point `i` of the x axis and `j` of the y axis is at
position `nx·j+i` of the fields. -/
theorem C106_fields (xs ys : List K) (z : K) :
    ∃ f, fields xs ys z = .ok f ∧ f.1.length = xs.length * ys.length ∧ f.2.length = xs.length * ys.length ∧
      ∀ i j, i < xs.length → j < ys.length → f.1[xs.length * j + i]? = xs[i]? ∧ f.2[xs.length * j + i]? = ys[j]? := by
  let A : ℕ → ℕ → List K × List K → Prop := fun i j p =>
    p.1.length = xs.length * ys.length ∧ p.2.length = xs.length * ys.length ∧
      ∀ i' j', i' < xs.length → j' < ys.length → (i' < i ∨ i' = i ∧ j' < j) →
        p.1[xs.length * j' + i']? = xs[i']? ∧ p.2[xs.length * j' + i']? = ys[j']?
  have lt : ∀ i j, i < xs.length → j < ys.length → xs.length * j + i < xs.length * ys.length := by
    intro i j hi hj
    calc xs.length * j + i < xs.length * j + xs.length := by omega
      _ = xs.length * (j + 1) := by ring
      _ ≤ _ := Nat.mul_le_mul_left _ hj
  have inj : ∀ i j i' j', i < xs.length → i' < xs.length → xs.length * j + i = xs.length * j' + i' → i = i' ∧ j = j' := by
    intro i j i' j' hi hi' h
    have h1 : i = i' := by
      have := congrArg (· % xs.length) h
      simpa [Nat.mul_add_mod, Nat.mod_eq_of_lt hi, Nat.mod_eq_of_lt hi'] using this
    subst h1
    exact ⟨rfl, Nat.eq_of_mul_eq_mul_left (by omega) (by omega : xs.length * j = xs.length * j')⟩
  obtain ⟨q, e, g1, g2, g3⟩ := Fill.forN_inv
    (body := fun i p => forN (fun j (p : List K × List K) => do
      let x ← readAt xs i
      let y ← readAt ys j
      let a ← writeAt p.1 (xs.length * j + i) x
      let b ← writeAt p.2 (xs.length * j + i) y
      .ok (a, b)) 0 ys.length p) (fun i p => A i 0 p) xs.length 0
    (List.replicate (xs.length * ys.length) z, List.replicate (xs.length * ys.length) z)
    (fun i p _ hi hA => by
      rw [Nat.zero_add] at hi
      obtain ⟨p', h1, h2⟩ := Fill.forN_inv
        (body := fun j (p : List K × List K) => do
          let x ← readAt xs i
          let y ← readAt ys j
          let a ← writeAt p.1 (xs.length * j + i) x
          let b ← writeAt p.2 (xs.length * j + i) y
          .ok (a, b)) (fun j p => A i j p) ys.length 0 p
        (fun j p _ hj hA => by
          rw [Nat.zero_add] at hj
          obtain ⟨l1, l2, hc⟩ := hA
          have hq := lt i j hi hj
          have q1 : xs.length * j + i < p.1.length := by omega
          have q2 : xs.length * j + i < p.2.length := by omega
          refine ⟨(p.1.set (xs.length * j + i) xs[i], p.2.set (xs.length * j + i) ys[j]), ?_, by simpa using l1, by simpa using l2, ?_⟩
          · simp [readAt, writeAt, hi, hj, q1, q2]
          · intro i' j' hi' hj' hd
            by_cases hs : xs.length * j' + i' = xs.length * j + i
            · obtain ⟨rfl, rfl⟩ := inj _ _ _ _ hi' hi hs
              simp [q1, q2, hi, hj]
            · simp only [List.getElem?_set_ne (Ne.symm hs)]
              refine hc i' j' hi' hj' ?_
              rcases hd with h | ⟨rfl, h⟩
              · exact .inl h
              · refine .inr ⟨rfl, ?_⟩
                rcases Nat.lt_succ_iff_lt_or_eq.1 h with h | rfl
                · exact h
                · exact absurd rfl hs) hA
      refine ⟨p', h1, h2.1, h2.2.1, fun i' j' hi' hj' hd => h2.2.2 i' j' hi' hj' ?_⟩
      rcases hd with h | ⟨_, h⟩ <;> omega)
    ⟨by simp, by simp, fun i' j' _ _ h => by omega⟩
  exact ⟨q, e, g1, g2, fun i j hi hj => g3 i j hi hj (.inl (by omega))⟩

example : fields [1, 2, 3] [(10 : ℕ), 20] 0 = .ok ([1, 2, 3, 1, 2, 3], [10, 10, 10, 20, 20, 20]) := by decide +kernel

/-! ## Lemmas about calls -/

theorem andThen_ok {S : Type} {p : S × Res Unit} {f : S → S × Res Unit} {s : S} (h : andThen p f = (s, .ok ())) :
    ∃ t, p = (t, .ok ()) ∧ f t = (s, .ok ()) := by
  obtain ⟨t, r⟩ := p
  cases r with
  | ok u => exact ⟨t, rfl, h⟩
  | throws => simp [andThen] at h
  | ub => simp [andThen] at h

/-- A property kept by both statements is kept by both together. -/
theorem andThen_inv {S : Type} {p : S × Res Unit} {f : S → S × Res Unit} {I : S → Prop} (h1 : I p.1) (h2 : ∀ t, p = (t, .ok ()) → I (f t).1) :
    I (andThen p f).1 := by
  obtain ⟨t, r⟩ := p
  cases r with
  | ok u => exact h2 t rfl
  | throws => exact h1
  | ub => exact h1

section Calls

variable [Zero K]

/-- What holds in all states: vectors that are turned lie in one system, the one of both components, whose matrix is there, and
matrices belong to their systems. -/
structure Sound (W : World V K D) (s : State V CS K) : Prop where
  vecX : ∀ x y id, s.vecX x = some (y, id) → W.system x = some id ∧ W.system y = some id ∧ ∃ m, s.cache id = some m
  vecY : ∀ y x id, s.vecY y = some (x, id) → W.system y = some id ∧ W.system x = some id ∧ ∃ m, s.cache id = some m
  dir : ∀ v id, s.dir v = some id → W.system v = some id
  cache : ∀ id m, s.cache id = some m → ∃ b, makeCached W id b = .ok m

/-- Only the dataset differs. -/
structure SameMaps (s t : State V CS K) : Prop where
  vecX : t.vecX = s.vecX
  vecY : t.vecY = s.vecY
  dir : t.dir = s.dir
  cache : t.cache = s.cache

omit [Zero K] in
theorem SameMaps.trans {s t u : State V CS K} (h : SameMaps s t) (g : SameMaps t u) : SameMaps s u :=
  ⟨g.1.trans h.1, g.2.trans h.2, g.3.trans h.3, g.4.trans h.4⟩

theorem Sound.same {W : World V K D} {s t : State V CS K} (h : Sound W s) (g : SameMaps s t) : Sound W t :=
  ⟨by rw [g.1, g.4]; exact h.1, by rw [g.2, g.4]; exact h.2, by rw [g.3]; exact h.3, by rw [g.4]; exact h.4⟩

omit [Zero K] in
theorem setName_same (W : World V K D) (n : String) (o : Option String) (s : State V CS K) : SameMaps s (setName W n o s).1 := by
  unfold setName
  cases o <;> exact ⟨rfl, rfl, rfl, rfl⟩

omit [Zero K] in
theorem setDirection_same (n p : String) (d : Dir) (s : State V CS K) : SameMaps s (setDirection n p d s).1 := by
  unfold setDirection
  split_ifs <;> exact ⟨rfl, rfl, rfl, rfl⟩

theorem ensure_cases (W : World V K D) (b : Bool) (id : String) (s : State V CS K) :
    (∃ m, s.cache id = some m ∧ ensure W b id s = (s, .ok ())) ∨
    (∃ m, s.cache id = none ∧ makeCached W id b = .ok m ∧ ensure W b id s = ({ s with cache := upd s.cache id m }, .ok ())) ∨
    (s.cache id = none ∧ (ensure W b id s).1 = s ∧ (ensure W b id s).2 ≠ .ok ()) := by
  unfold ensure
  cases h : s.cache id with
  | some m => exact .inl ⟨m, rfl, rfl⟩
  | none =>
    cases h2 : makeCached W id b with
    | ok m => exact .inr (.inl ⟨m, rfl, rfl, rfl⟩)
    | throws => exact .inr (.inr ⟨rfl, rfl, by simp⟩)
    | ub => exact .inr (.inr ⟨rfl, rfl, by simp⟩)

theorem upd_some {β : Type} {f : String → Option β} {k n : String} {a b : β} (h : upd f k a n = some b) : n = k ∧ b = a ∨ n ≠ k ∧ f n = some b := by
  unfold upd at h
  split_ifs at h with e
  · exact .inl ⟨e, (Option.some.inj h).symm⟩
  · exact .inr ⟨e, h⟩

theorem upd_mono {β : Type} {f : String → Option β} {k n : String} {a : β} (h : ∃ b, f n = some b) : ∃ b, upd f k a n = some b := by
  unfold upd
  split_ifs
  · exact ⟨a, rfl⟩
  · exact h

theorem ensure_sound {W : World V K D} {b : Bool} {id : String} {s : State V CS K} (h : Sound W s) : Sound W (ensure W b id s).1 := by
  rcases ensure_cases W b id s with ⟨m, -, e⟩ | ⟨m, -, hm, e⟩ | ⟨-, e, -⟩
  · rw [e]; exact h
  · rw [e]
    refine ⟨fun x y i hx => ?_, fun x y i hx => ?_, h.dir, fun i m' hi => ?_⟩
    · obtain ⟨h1, h2, h3⟩ := h.vecX x y i hx
      exact ⟨h1, h2, upd_mono h3⟩
    · obtain ⟨h1, h2, h3⟩ := h.vecY x y i hx
      exact ⟨h1, h2, upd_mono h3⟩
    · rcases upd_some hi with ⟨rfl, rfl⟩ | ⟨-, hi⟩
      · exact ⟨b, hm⟩
      · exact h.cache i m' hi
  · rw [e]; exact h

theorem rotatePair_sound {W : World V K D} {b : Bool} {x y : String} {sx sy : Option String} {s : State V CS K} (h : Sound W s) :
    Sound W (rotatePair W b x y sx sy s).1 := by
  unfold rotatePair
  split
  case h_2 => exact h
  case h_1 p q hp hq =>
    refine andThen_inv (h.same (setName_same W x sx s)) fun s1 e1 => ?_
    have h1 : Sound W s1 := by have := h.same (setName_same W x sx s); rwa [e1] at this
    refine andThen_inv (h1.same (setName_same W y sy s1)) fun s2 e2 => ?_
    have h2 : Sound W s2 := by have := h1.same (setName_same W y sy s1); rwa [e2] at this
    refine andThen_inv (h2.same (setDirection_same _ _ _ _)) fun s3 e3 => ?_
    have h3 : Sound W s3 := by have := h2.same (setDirection_same x y (directions b).1 s2); rwa [e3] at this
    refine andThen_inv (h3.same (setDirection_same _ _ _ _)) fun s4 e4 => ?_
    have h4 : Sound W s4 := by have := h3.same (setDirection_same y x (directions b).2 s3); rwa [e4] at this
    split_ifs with hpq
    · exact h4
    · rw [not_not] at hpq
      subst hpq
      refine andThen_inv (ensure_sound h4) fun s5 e5 => ?_
      have h5 : Sound W s5 := by have := ensure_sound (b := b) (id := p) h4; rwa [e5] at this
      have hm : ∃ m, s5.cache p = some m := by
        rcases ensure_cases W b p s4 with ⟨m, hm, e⟩ | ⟨m, -, -, e⟩ | ⟨-, -, e⟩
        · rw [e5] at e; obtain rfl := (Prod.mk.inj e).1; exact ⟨m, hm⟩
        · rw [e5] at e; obtain rfl := (Prod.mk.inj e).1; exact ⟨m, by simp [upd]⟩
        · rw [e5] at e; exact absurd rfl e
      refine ⟨fun a c i hi => ?_, fun a c i hi => ?_, h5.dir, h5.cache⟩
      · rcases upd_some hi with ⟨rfl, e⟩ | ⟨-, hi⟩
        · obtain ⟨rfl, rfl⟩ := Prod.mk.inj e; exact ⟨hp, hq, hm⟩
        · exact h5.vecX a c i hi
      · rcases upd_some hi with ⟨rfl, e⟩ | ⟨-, hi⟩
        · obtain ⟨rfl, rfl⟩ := Prod.mk.inj e; exact ⟨hq, hp, hm⟩
        · exact h5.vecY a c i hi

theorem rotatePairs_sound {W : World V K D} {b : Bool} : ∀ (xs ys sx sy : List String) {s : State V CS K}, Sound W s →
    Sound W (rotatePairs W b xs ys sx sy s).1
  | [], _, _, _, _, h => by simpa [rotatePairs] using h
  | _ :: _, [], _, _, _, h => by simpa [rotatePairs] using h
  | x :: xs, y :: ys, sx, sy, s, h => by
    rw [rotatePairs]
    refine andThen_inv (rotatePair_sound h) fun t e => rotatePairs_sound xs ys _ _ ?_
    have := rotatePair_sound (b := b) (x := x) (y := y) (sx := sx.head?) (sy := sy.head?) h
    rwa [e] at this

theorem rotateVectors_sound {W : World V K D} {b : Bool} (xs ys sx sy : List String) {s : State V CS K} (h : Sound W s) :
    Sound W (rotateVectors W b xs ys sx sy s).1 := by
  unfold rotateVectors
  split_ifs
  · exact h
  · exact h
  · exact h
  · exact rotatePairs_sound _ _ _ _ h

theorem rotateEach_sound {W : World V K D} {b : Bool} : ∀ (vs : List String) {s : State V CS K}, Sound W s →
    Sound W (rotateEach W b vs s).1
  | [], _, h => h
  | v :: vs, s, h => by
    rw [rotateEach]
    split
    case h_1 => exact h
    case h_2 id hid =>
      have h1 : Sound W { s with dir := upd s.dir v id } := ⟨h.vecX, h.vecY, fun a i hi => by
        rcases upd_some hi with ⟨rfl, rfl⟩ | ⟨-, hi⟩
        · exact hid
        · exact h.dir a i hi, h.cache⟩
      refine andThen_inv (ensure_sound h1) fun t e => rotateEach_sound vs ?_
      have := ensure_sound (b := b) (id := id) h1
      rwa [e] at this

theorem call_sound {L : Lib V Pr} {W : World V K D} {s : State V CS K} (h : Sound W s) (c : Call) : Sound W (call L W s c).1 := by
  cases c with
  | vectors b xs ys sx sy => exact rotateVectors_sound _ _ _ _ h
  | directions b vs =>
    simp only [call, rotateDirections]
    split_ifs
    · exact h
    · exact h
    · exact rotateEach_sound _ h
  | all b => exact rotateVectors_sound _ _ _ _ (h.same ⟨rfl, rfl, rfl, rfl⟩)

theorem calls_sound {L : Lib V Pr} {W : World V K D} : ∀ (cs : List Call) {s : State V CS K}, Sound W s → Sound W (calls L W s cs)
  | [], _, h => h
  | c :: cs, s, h => by
    have := calls_sound (L := L) cs (call_sound (L := L) h c)
    simpa [calls] using this

/-- **C106.** After any calls, failed ones included, the two components of each vector that is turned belong to the same system, and the
matrix of that system is there and is one of its two matrices. -/
theorem C106_vectors_have_matrices (L : Lib V Pr) (W : World V K D) (c : CDM Vec V CS) (cs : List Call) (v w id : String)
    (h : (calls L W { cdm := c } cs).vecX v = some (w, id) ∨ (calls L W { cdm := c } cs).vecY v = some (w, id)) :
    W.system v = some id ∧ W.system w = some id ∧
      ∃ m b, (calls L W { cdm := c } cs).cache id = some m ∧ makeCached W id b = .ok m := by
  have hs : Sound W (calls L W { cdm := c } cs) := calls_sound cs
    ⟨fun _ _ _ h => by simp at h, fun _ _ _ h => by simp at h, fun _ _ h => by simp at h, fun _ _ h => by simp at h⟩
  rcases h with h | h
  · obtain ⟨h1, h2, m, hm⟩ := hs.vecX _ _ _ h
    obtain ⟨b, hb⟩ := hs.cache _ _ hm
    exact ⟨h1, h2, m, b, hm, hb⟩
  · obtain ⟨h1, h2, m, hm⟩ := hs.vecY _ _ _ h
    obtain ⟨b, hb⟩ := hs.cache _ _ hm
    exact ⟨h1, h2, m, b, hm, hb⟩

/-! ## Directions have matrices if no call failed -/

/-- The result of every call of a sequence is `ok`. -/
def AllOk (L : Lib V Pr) (W : World V K D) : State V CS K → List Call → Prop
  | _, [] => True
  | s, c :: cs => (call L W s c).2 = .ok () ∧ AllOk L W (call L W s c).1 cs

/-- Every direction has a matrix. -/
def DirCached (s : State V CS K) : Prop := ∀ v id, s.dir v = some id → ∃ m, s.cache id = some m

theorem ensure_mono {W : World V K D} {b : Bool} {id : String} {s : State V CS K} : (ensure W b id s).1.vecX = s.vecX ∧
    (ensure W b id s).1.vecY = s.vecY ∧ (ensure W b id s).1.dir = s.dir ∧ (ensure W b id s).1.cdm = s.cdm ∧
    ∀ i m, s.cache i = some m → (ensure W b id s).1.cache i = some m := by
  rcases ensure_cases W b id s with ⟨m, -, e⟩ | ⟨m, hn, -, e⟩ | ⟨-, e, -⟩
  · rw [e]; exact ⟨rfl, rfl, rfl, rfl, fun _ _ h => h⟩
  · rw [e]
    refine ⟨rfl, rfl, rfl, rfl, fun i m' h => ?_⟩
    have : i ≠ id := by rintro rfl; rw [hn] at h; cases h
    simp [upd, this, h]
  · rw [e]; exact ⟨rfl, rfl, rfl, rfl, fun _ _ h => h⟩

theorem rotatePair_mono {W : World V K D} {b : Bool} {x y : String} {sx sy : Option String} (s : State V CS K) :
    (rotatePair W b x y sx sy s).1.dir = s.dir ∧ ∀ i m, s.cache i = some m → (rotatePair W b x y sx sy s).1.cache i = some m := by
  unfold rotatePair
  split
  case h_2 => exact ⟨rfl, fun _ _ h => h⟩
  case h_1 p q hp hq =>
    let I : State V CS K → Prop := fun t => t.dir = s.dir ∧ ∀ i m, s.cache i = some m → t.cache i = some m
    have same : ∀ t u, SameMaps t u → I t → I u := fun t u h hi => ⟨h.dir.trans hi.1, fun i m e => by rw [h.cache]; exact hi.2 i m e⟩
    have h0 : I s := ⟨rfl, fun _ _ h => h⟩
    refine andThen_inv (I := I) (same _ _ (setName_same W x sx s) h0) fun s1 e1 => ?_
    have h1 : I s1 := by have := same _ _ (setName_same W x sx s) h0; rwa [e1] at this
    refine andThen_inv (I := I) (same _ _ (setName_same W y sy s1) h1) fun s2 e2 => ?_
    have h2 : I s2 := by have := same _ _ (setName_same W y sy s1) h1; rwa [e2] at this
    refine andThen_inv (I := I) (same _ _ (setDirection_same _ _ _ _) h2) fun s3 e3 => ?_
    have h3 : I s3 := by have := same _ _ (setDirection_same x y (directions b).1 s2) h2; rwa [e3] at this
    refine andThen_inv (I := I) (same _ _ (setDirection_same _ _ _ _) h3) fun s4 e4 => ?_
    have h4 : I s4 := by have := same _ _ (setDirection_same y x (directions b).2 s3) h3; rwa [e4] at this
    split_ifs with hpq
    · exact h4
    · have h5 : I (ensure W b p s4).1 :=
        ⟨ensure_mono.2.2.1.trans h4.1, fun i m h => ensure_mono.2.2.2.2 i m (h4.2 i m h)⟩
      refine andThen_inv (I := I) h5 fun s5 e5 => ?_
      rw [e5] at h5
      exact h5

theorem rotatePairs_mono {W : World V K D} {b : Bool} : ∀ (xs ys sx sy : List String) (s : State V CS K),
    (rotatePairs W b xs ys sx sy s).1.dir = s.dir ∧ ∀ i m, s.cache i = some m → (rotatePairs W b xs ys sx sy s).1.cache i = some m
  | [], _, _, _, _ => by simp [rotatePairs]
  | _ :: _, [], _, _, _ => by simp [rotatePairs]
  | x :: xs, y :: ys, sx, sy, s => by
    rw [rotatePairs]
    have h := rotatePair_mono (W := W) (b := b) (x := x) (y := y) (sx := sx.head?) (sy := sy.head?) s
    refine andThen_inv (I := fun t : State V CS K => t.dir = s.dir ∧ ∀ i m, s.cache i = some m → t.cache i = some m) h fun t e => ?_
    rw [e] at h
    have h2 := rotatePairs_mono (W := W) (b := b) xs ys sx.tail sy.tail t
    exact ⟨h2.1.trans h.1, fun i m hi => h2.2 i m (h.2 i m hi)⟩

theorem rotateVectors_mono {W : World V K D} {b : Bool} (xs ys sx sy : List String) (s : State V CS K) :
    (rotateVectors W b xs ys sx sy s).1.dir = s.dir ∧ ∀ i m, s.cache i = some m → (rotateVectors W b xs ys sx sy s).1.cache i = some m := by
  unfold rotateVectors
  split_ifs
  · exact ⟨rfl, fun _ _ h => h⟩
  · exact ⟨rfl, fun _ _ h => h⟩
  · exact ⟨rfl, fun _ _ h => h⟩
  · exact rotatePairs_mono _ _ _ _ _

theorem rotateEach_mono {W : World V K D} {b : Bool} : ∀ (vs : List String) (s : State V CS K) (i : String) (m : Cached K),
    s.cache i = some m → (rotateEach W b vs s).1.cache i = some m
  | [], _, _, _, h => h
  | v :: vs, s, i, m, h => by
    rw [rotateEach]
    split
    case h_1 => exact h
    case h_2 id hid =>
      have h1 := (ensure_mono (W := W) (b := b) (id := id) (s := { s with dir := upd s.dir v id })).2.2.2.2 i m h
      refine andThen_inv (I := fun t : State V CS K => t.cache i = some m) h1 fun t e => ?_
      rw [e] at h1
      exact rotateEach_mono vs t i m h1

theorem rotateEach_cached {W : World V K D} {b : Bool} : ∀ (vs : List String) (s : State V CS K), DirCached s →
    (rotateEach W b vs s).2 = .ok () → DirCached (rotateEach W b vs s).1
  | [], _, h, _ => h
  | v :: vs, s, h, hok => by
    rw [rotateEach] at hok ⊢
    cases hid : W.system v with
    | none => rw [hid] at hok; cases hok
    | some id =>
      rw [hid] at hok
      dsimp only at hok ⊢
      rcases ensure_cases W b id { s with dir := upd s.dir v id } with ⟨m, hm, e⟩ | ⟨m, hn, -, e⟩ | ⟨-, -, e⟩
      · rw [e] at hok ⊢
        refine rotateEach_cached vs _ (fun a i hi => ?_) hok
        rcases upd_some hi with ⟨-, rfl⟩ | ⟨-, hi⟩
        · exact ⟨m, hm⟩
        · exact h a i hi
      · rw [e] at hok ⊢
        refine rotateEach_cached vs _ (fun a i hi => ?_) hok
        rcases upd_some hi with ⟨-, rfl⟩ | ⟨-, hi⟩
        · exact ⟨m, by simp [upd]⟩
        · exact upd_mono (h a i hi)
      · exfalso
        revert hok e
        generalize ensure W b id { s with dir := upd s.dir v id } = p
        obtain ⟨t, r⟩ := p
        cases r <;> simp [andThen]

/-- **C106.** After calls that all succeeded, each direction that is turned has its matrix.
The full property (after any calls) is violated: `C106_null_matrix`. -/
theorem C106_directions_have_matrices_partial (L : Lib V Pr) (W : World V K D) (c : CDM Vec V CS) (cs : List Call)
    (hok : AllOk L W { cdm := c } cs) (v id : String) (h : (calls L W { cdm := c } cs).dir v = some id) :
    W.system v = some id ∧ ∃ m b, (calls L W { cdm := c } cs).cache id = some m ∧ makeCached W id b = .ok m := by
  have key : ∀ (cs : List Call) (s : State V CS K), DirCached s → AllOk L W s cs → DirCached (calls L W s cs) := by
    intro cs
    induction cs with
    | nil => intro s h _; exact h
    | cons c cs ih =>
      intro s h hok
      have : DirCached (call L W s c).1 := by
        cases c with
        | vectors b xs ys sx sy =>
          have hm := rotateVectors_mono (W := W) (b := b) xs ys sx sy s
          intro v id hv
          simp only [call] at hv ⊢
          rw [hm.1] at hv
          obtain ⟨m, h3⟩ := h v id hv
          exact ⟨m, hm.2 _ _ h3⟩
        | directions b vs =>
          have ho := hok.1
          simp only [call, rotateDirections] at ho ⊢
          split_ifs at ho ⊢
          · exact h
          · exact rotateEach_cached _ _ h ho
        | all b =>
          intro v id hv
          simp only [call, rotateAll] at hv ⊢
          rw [(rotateVectors_mono _ _ _ _ _).1] at hv
          obtain ⟨m, h3⟩ := h v id hv
          exact ⟨m, (rotateVectors_mono _ _ _ _ _).2 _ _ h3⟩
      exact ih _ this hok.2
  have hs : Sound W (calls L W { cdm := c } cs) := calls_sound cs
    ⟨fun _ _ _ h => by simp at h, fun _ _ _ h => by simp at h, fun _ _ h => by simp at h, fun _ _ h => by simp at h⟩
  obtain ⟨m, hm⟩ := key cs { cdm := c } (fun _ _ h => by simp at h) hok v id h
  obtain ⟨b, hb⟩ := hs.cache _ _ hm
  exact ⟨hs.dir _ _ h, m, b, hm, hb⟩

end Calls

end Fimex.Rotate
