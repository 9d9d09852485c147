import Verif.Processor.RotateProps

/-!
# C106: what a successful call does
-/

namespace Fimex.Rotate

open Cdm Vectors Interp
open Cf (Lib)

variable {V CS K D Pr : Type}

/-! ## Specification -/

/-- The variables of a name. -/
def varsOf (c : CDM Vec V CS) (n : String) : List (Var Vec) := c.vars.filter fun v => v.name = n

/-- Between two datasets at most the vectors and standard names of the variables in `N` differ. -/
structure OnlyVectors (c c' : CDM Vec V CS) (N : String → Prop) : Prop where
  dims : c'.dims = c.dims
  vars : c'.vars.map (fun v : Var Vec => (v.name, v.shape)) = c.vars.map fun v : Var Vec => (v.name, v.shape)
  others : ∀ n, ¬ N n → c'.attrs n = c.attrs n ∧ varsOf c' n = varsOf c n
  attributes : ∀ n a, a ≠ "standard_name" → getAttribute c' n a = getAttribute c n a

/-- The variable exists, and is the component of a vector with the given counterpart and direction. -/
def IsComponent (c : CDM Vec V CS) (n p : String) (d : Dir) : Prop :=
  (∃ v ∈ c.vars, v.name = n) ∧ ∀ v ∈ c.vars, v.name = n → v.payload = ⟨p, d⟩

/-- The standard name of a variable is the given one; without one it has not changed. -/
def Named (W : World V K D) (c c' : CDM Vec V CS) (n : String) (t : Option String) : Prop :=
  match t with
  | some t => getAttribute c' n "standard_name" = .ok ⟨"standard_name", W.value t⟩
  | none => getAttribute c' n "standard_name" = getAttribute c n "standard_name"

/-! ## Lemmas -/

theorem OnlyVectors.refl (c : CDM Vec V CS) (N : String → Prop) : OnlyVectors c c N := ⟨rfl, rfl, fun _ _ => ⟨rfl, rfl⟩, fun _ _ _ => rfl⟩

theorem OnlyVectors.trans {c c' c'' : CDM Vec V CS} {N : String → Prop} (h : OnlyVectors c c' N) (g : OnlyVectors c' c'' N) : OnlyVectors c c'' N :=
  ⟨g.dims.trans h.dims, g.vars.trans h.vars, fun n hn => ⟨(g.others n hn).1.trans (h.others n hn).1, (g.others n hn).2.trans (h.others n hn).2⟩,
    fun n a ha => (g.attributes n a ha).trans (h.attributes n a ha)⟩

theorem OnlyVectors.mono {c c' : CDM Vec V CS} {N M : String → Prop} (h : OnlyVectors c c' N) (hN : ∀ n, N n → M n) : OnlyVectors c c' M :=
  ⟨h.dims, h.vars, fun n hn => h.others n fun hh => hn (hN n hh), h.attributes⟩

theorem mem_varsOf {c : CDM Vec V CS} {n : String} {v : Var Vec} : v ∈ varsOf c n ↔ v ∈ c.vars ∧ v.name = n := by simp [varsOf]

theorem IsComponent.of_varsOf {c c' : CDM Vec V CS} {n p : String} {d : Dir} (e : varsOf c' n = varsOf c n) (h : IsComponent c n p d) : IsComponent c' n p d := by
  obtain ⟨⟨v, hv, hn⟩, h2⟩ := h
  constructor
  · have : v ∈ varsOf c' n := by rw [e]; exact mem_varsOf.2 ⟨hv, hn⟩
    exact ⟨v, (mem_varsOf.1 this).1, hn⟩
  · intro w hw hwn
    have : w ∈ varsOf c n := by rw [← e]; exact mem_varsOf.2 ⟨hw, hwn⟩
    exact h2 w (mem_varsOf.1 this).1 hwn

theorem getAttribute_congr {c c' : CDM Vec V CS} {n : String} (h : c'.attrs n = c.attrs n) (a : String) : getAttribute c' n a = getAttribute c n a := by
  unfold getAttribute; rw [h]

theorem Named.congr {W : World V K D} {c c' d d' : CDM Vec V CS} {n : String} {o : Option String} (h : Named W c c' n o)
    (e1 : getAttribute d n "standard_name" = getAttribute c n "standard_name")
    (e2 : getAttribute d' n "standard_name" = getAttribute c' n "standard_name") : Named W d d' n o := by
  unfold Named at h ⊢
  cases o with
  | none => exact e2.trans (h.trans e1.symm)
  | some t => exact e2.trans h

theorem find_replaced (l : List (Attr V)) (a : Attr V) : ((l.filter fun b => !(b.name == a.name)) ++ [a]).find? (fun b => b.name == a.name) = some a := by
  rw [List.find?_append, List.find?_eq_none.2]
  · simp
  · intro b hb; simpa using (List.mem_filter.1 hb).2

theorem find_replaced_ne (l : List (Attr V)) (a : Attr V) (k : String) (hk : k ≠ a.name) :
    ((l.filter fun b => !(b.name == a.name)) ++ [a]).find? (fun b => b.name == k) = l.find? fun b => b.name == k := by
  rw [List.find?_append, List.find?_filter]
  have e1 : (List.find? (fun b : Attr V => b.name == k) [a]) = none := by simp [Ne.symm hk]
  have e2 : (fun b : Attr V => (!(b.name == a.name)) && (b.name == k)) = fun b => b.name == k := by
    funext b
    by_cases hb : b.name = k <;> simp [hb, hk]
  rw [e1, Option.or_none]
  simp only [Bool.decide_and, Bool.decide_eq_true, e2]

theorem setName_ok {W : World V K D} {n : String} {o : Option String} {s s' : State V CS K} (h : setName W n o s = (s', .ok ())) :
    OnlyVectors s.cdm s'.cdm (· = n) ∧ s'.cdm.vars = s.cdm.vars ∧ Named W s.cdm s'.cdm n o := by
  unfold setName at h
  cases o with
  | none => obtain ⟨rfl, -⟩ := Prod.mk.inj h; exact ⟨.refl _ _, rfl, by unfold Named; rfl⟩
  | some t =>
    dsimp only at h
    obtain ⟨rfl, h2⟩ := Prod.mk.inj h
    rcases addOrReplaceAttribute_cases s.cdm n ⟨"standard_name", W.value t⟩ with ⟨-, e⟩ | ⟨-, e⟩
    · rw [e] at h2; cases h2
    · simp only [e]
      refine ⟨⟨rfl, rfl, fun k hk => ⟨if_neg hk, rfl⟩, fun k a ha => ?_⟩, trivial, ?_⟩
      · by_cases hk : k = n
        · subst hk
          simp only [getAttribute, if_true]
          rw [find_replaced_ne _ ⟨"standard_name", W.value t⟩ a ha]
          unfold getAttributes
          cases hc : s.cdm.attrs k with
          | none => simp
          | some l => simp
        · simp [getAttribute, hk]
      · simp only [Named, getAttribute, if_true]
        rw [find_replaced _ ⟨"standard_name", W.value t⟩]

theorem setDirection_ok {n p : String} {d : Dir} {s s' : State V CS K} (h : setDirection n p d s = (s', .ok ())) :
    OnlyVectors s.cdm s'.cdm (· = n) ∧ s'.cdm.attrs = s.cdm.attrs ∧ IsComponent s'.cdm n p d := by
  unfold setDirection at h
  split_ifs at h with hv
  · obtain ⟨rfl, -⟩ := Prod.mk.inj h
    refine ⟨⟨rfl, ?_, fun k hk => ⟨rfl, ?_⟩, fun _ _ _ => rfl⟩, rfl, ?_, ?_⟩
    · simp only [setVec, List.map_map]
      refine List.map_congr_left fun v _ => ?_
      simp only [Function.comp]
      split_ifs <;> rfl
    · simp only [varsOf, setVec, List.filter_map]
      have hf : ((fun v : Var Vec => decide (v.name = k)) ∘ fun v : Var Vec => if v.name = n then { v with payload := ⟨p, d⟩ } else v) =
          fun v => decide (v.name = k) := by
        funext v
        simp only [Function.comp]
        split_ifs <;> rfl
      rw [hf]
      conv_rhs => rw [← List.map_id (List.filter (fun v : Var Vec => decide (v.name = k)) s.cdm.vars)]
      refine List.map_congr_left fun v hvm => ?_
      have : v.name = k := by simpa using (List.mem_filter.1 hvm).2
      rw [if_neg (by rw [this]; exact hk)]; rfl
    · rw [hasVariable_iff] at hv
      obtain ⟨v, hv, hn⟩ : ∃ v ∈ s.cdm.vars, v.name = n := by simpa using hv
      exact ⟨_, List.mem_map.2 ⟨v, hv, rfl⟩, by rw [if_pos hn]; exact hn⟩
    · intro v hv hn
      obtain ⟨w, -, rfl⟩ := List.mem_map.1 hv
      split_ifs at hn ⊢ with hw
      · rfl
      · exact absurd hn hw
  · cases (Prod.mk.inj h).2

section Calls

variable [Zero K]

/-- What one pair leaves. -/
theorem rotatePair_ok {W : World V K D} {b : Bool} {x y : String} {sx sy : Option String} {s s' : State V CS K} (hxy : x ≠ y)
    (h : rotatePair W b x y sx sy s = (s', .ok ())) :
    (∃ p m, W.system x = some p ∧ W.system y = some p ∧ s'.vecX = upd s.vecX x (y, p) ∧ s'.vecY = upd s.vecY y (x, p) ∧ s'.cache p = some m) ∧
    (∀ i m, s'.cache i = some m → s.cache i = some m ∨ s.cache i = none ∧ makeCached W i b = .ok m) ∧
    OnlyVectors s.cdm s'.cdm (fun n => n = x ∨ n = y) ∧
    IsComponent s'.cdm x y (directions b).1 ∧ IsComponent s'.cdm y x (directions b).2 ∧ Named W s.cdm s'.cdm x sx ∧ Named W s.cdm s'.cdm y sy := by
  unfold rotatePair at h
  split at h
  case h_2 => cases (Prod.mk.inj h).2
  case h_1 p q hp hq =>
    obtain ⟨s1, e1, hn⟩ := andThen_ok h
    obtain ⟨s2, e2, hnn⟩ := andThen_ok hn
    obtain ⟨s3, e3, hnnn⟩ := andThen_ok hnn
    obtain ⟨s4, e4, hnnnn⟩ := andThen_ok hnnn
    have m1 := setName_same W x sx s; rw [e1] at m1
    have m2 := setName_same W y sy s1; rw [e2] at m2
    have m3 := setDirection_same x y (directions b).1 s2; rw [e3] at m3
    have m4 := setDirection_same y x (directions b).2 s3; rw [e4] at m4
    have mm := ((m1.trans m2).trans m3).trans m4
    dsimp only at mm
    obtain ⟨a1, b1, c1⟩ := setName_ok e1
    obtain ⟨a2, b2, c2⟩ := setName_ok e2
    obtain ⟨a3, b3, c3⟩ := setDirection_ok e3
    obtain ⟨a4, b4, c4⟩ := setDirection_ok e4
    by_cases hpq : p ≠ q
    · rw [if_pos hpq] at hnnnn; cases (Prod.mk.inj hnnnn).2
    rw [if_neg hpq] at hnnnn
    rw [not_not] at hpq
    subst hpq
    obtain ⟨s5, e5, hr⟩ := andThen_ok hnnnn
    clear h hn hnn hnnn hnnnn
    obtain ⟨rfl, -⟩ := Prod.mk.inj hr
    have m5 := ensure_mono (W := W) (b := b) (id := p) (s := s4)
    rw [e5] at m5
    obtain ⟨n1, n2, n3, n4, n5⟩ := m5
    dsimp only at n1 n2 n3 n4 n5
    refine ⟨⟨p, ?_⟩, ?_, ?_, ?_, ?_, ?_, ?_⟩
    · rcases ensure_cases W b p s4 with ⟨m, hm, e⟩ | ⟨m, hm, hk, e⟩ | ⟨-, -, e⟩
      · rw [e5] at e; obtain rfl := (Prod.mk.inj e).1
        exact ⟨m, hp, hq, by rw [n1, mm.vecX], by rw [n2, mm.vecY], hm⟩
      · rw [e5] at e; obtain rfl := (Prod.mk.inj e).1
        exact ⟨m, hp, hq, by rw [n1, mm.vecX], by rw [n2, mm.vecY], by simp [upd]⟩
      · rw [e5] at e; exact absurd rfl e
    · intro i m hi
      dsimp only at hi
      rcases ensure_cases W b p s4 with ⟨m', hm, e⟩ | ⟨m', hm, hk, e⟩ | ⟨-, -, e⟩
      · rw [e5] at e; obtain rfl := (Prod.mk.inj e).1
        exact .inl (by rw [← mm.cache]; exact hi)
      · rw [e5] at e; obtain rfl := (Prod.mk.inj e).1
        rcases upd_some hi with ⟨rfl, rfl⟩ | ⟨-, hi⟩
        · exact .inr ⟨by rw [← mm.cache]; exact hm, hk⟩
        · exact .inl (by rw [← mm.cache]; exact hi)
      · rw [e5] at e; exact absurd rfl e
    · dsimp only
      rw [n4]
      exact (((a1.mono fun n h => .inl h).trans (a2.mono fun n h => .inr h)).trans (a3.mono fun n h => .inl h)).trans (a4.mono fun n h => .inr h)
    · dsimp only
      rw [n4]
      exact c3.of_varsOf (a4.others x hxy).2
    · dsimp only
      rw [n4]
      exact c4
    · dsimp only
      rw [n4]
      have e : getAttribute s4.cdm x "standard_name" = getAttribute s1.cdm x "standard_name" := by
        rw [getAttribute_congr (congrFun b4 x), getAttribute_congr (congrFun b3 x), getAttribute_congr (a2.others x hxy).1]
      exact c1.congr rfl e
    · dsimp only
      rw [n4]
      have e : getAttribute s4.cdm y "standard_name" = getAttribute s2.cdm y "standard_name" := by
        rw [getAttribute_congr (congrFun b4 y), getAttribute_congr (congrFun b3 y)]
      have e' : getAttribute s1.cdm y "standard_name" = getAttribute s.cdm y "standard_name" :=
        getAttribute_congr (a1.others y (Ne.symm hxy)).1 _
      exact c2.congr e'.symm e

/-- What a loop that ends leaves. -/
theorem rotatePairs_ok {W : World V K D} {b : Bool} : ∀ (xs ys sx sy : List String) (s s' : State V CS K), xs.length = ys.length → (xs ++ ys).Nodup →
    rotatePairs W b xs ys sx sy s = (s', .ok ()) →
    (∀ n, n ∉ xs → s'.vecX n = s.vecX n) ∧ (∀ n, n ∉ ys → s'.vecY n = s.vecY n) ∧
    (∀ i m, s'.cache i = some m → s.cache i = some m ∨ s.cache i = none ∧ makeCached W i b = .ok m) ∧
    OnlyVectors s.cdm s'.cdm (fun n => n ∈ xs ∨ n ∈ ys) ∧
    ∀ (k : ℕ) (x y : String), xs[k]? = some x → ys[k]? = some y →
      (∃ p m, W.system x = some p ∧ W.system y = some p ∧ s'.vecX x = some (y, p) ∧ s'.vecY y = some (x, p) ∧ s'.cache p = some m) ∧
      IsComponent s'.cdm x y (directions b).1 ∧ IsComponent s'.cdm y x (directions b).2 ∧
      Named W s.cdm s'.cdm x sx[k]? ∧ Named W s.cdm s'.cdm y sy[k]?
  | [], ys, sx, sy, s, s', hl, _, h => by
    obtain rfl : ys = [] := List.length_eq_zero_iff.1 hl.symm
    obtain ⟨rfl, -⟩ := Prod.mk.inj (by simpa [rotatePairs] using h : (s, (Res.ok () : Res Unit)) = (s', .ok ()))
    exact ⟨fun _ _ => rfl, fun _ _ => rfl, fun _ _ h => .inl h, .refl _ _, fun k x y hx => by simp at hx⟩
  | x :: xs, [], _, _, _, _, hl, _, _ => by simp at hl
  | x :: xs, y :: ys, sx, sy, s, s', hl, hn, h => by
    rw [rotatePairs] at h
    obtain ⟨t, e, h⟩ := andThen_ok h
    have hxx : x ∉ xs := by simp at hn; exact fun hh => hn.1.1 hh
    have hxy : x ≠ y := by simp at hn; exact hn.1.2.1
    have hxys : x ∉ ys := by simp at hn; exact hn.1.2.2
    have hn2 : (xs ++ y :: ys).Nodup := by rw [List.cons_append] at hn; exact (List.nodup_cons.1 hn).2
    have hyy : y ∉ xs ∧ y ∉ ys ∧ (xs ++ ys).Nodup := by
      have := List.nodup_middle.1 hn2
      rw [List.nodup_cons, List.mem_append] at this
      exact ⟨fun hh => this.1 (.inl hh), fun hh => this.1 (.inr hh), this.2⟩
    obtain ⟨⟨p, m, o1, o2, o3, o4, o5⟩, oc, od, ox, oy, nx, ny⟩ := rotatePair_ok hxy e
    obtain ⟨i1, i2, i3, i4, i5⟩ := rotatePairs_ok xs ys sx.tail sy.tail t s' (by simpa using hl) hyy.2.2 h
    have mono := (rotatePairs_mono (W := W) (b := b) xs ys sx.tail sy.tail t).2
    rw [h] at mono
    have fx := i4.others x (by rintro (hh | hh); exacts [hxx hh, hxys hh])
    have fy := i4.others y (by rintro (hh | hh); exacts [hyy.1 hh, hyy.2.1 hh])
    refine ⟨fun n hnn => ?_, fun n hnn => ?_, fun i m' hi => ?_, ?_, ?_⟩
    · rw [i1 n fun hh => hnn (List.mem_cons_of_mem _ hh), o3, upd, if_neg (by rintro rfl; exact hnn List.mem_cons_self)]
    · rw [i2 n fun hh => hnn (List.mem_cons_of_mem _ hh), o4, upd, if_neg (by rintro rfl; exact hnn List.mem_cons_self)]
    · rcases i3 i m' hi with hh | ⟨hh, hk⟩
      · exact oc i m' hh
      · refine .inr ⟨?_, hk⟩
        cases hs : s.cache i with
        | none => rfl
        | some m'' =>
          have := (rotatePair_mono (W := W) (b := b) (x := x) (y := y) (sx := sx.head?) (sy := sy.head?) s).2 i m'' hs
          rw [e] at this
          dsimp only at this
          rw [this] at hh; cases hh
    · refine (od.mono fun n hh => ?_).trans (i4.mono fun n hh => ?_)
      · rcases hh with rfl | rfl
        · exact .inl List.mem_cons_self
        · exact .inr List.mem_cons_self
      · exact hh.imp (List.mem_cons_of_mem _) (List.mem_cons_of_mem _)
    · intro k a c ha hc
      cases k with
      | zero =>
        obtain rfl : x = a := by simpa using ha
        obtain rfl : y = c := by simpa using hc
        refine ⟨⟨p, m, o1, o2, ?_, ?_, mono p m o5⟩, ox.of_varsOf fx.2, oy.of_varsOf fy.2, ?_, ?_⟩
        · rw [i1 x hxx, o3]; simp [upd]
        · rw [i2 y hyy.2.1, o4]; simp [upd]
        · rw [← List.head?_eq_getElem?]
          exact nx.congr rfl (getAttribute_congr fx.1 _)
        · rw [← List.head?_eq_getElem?]
          exact ny.congr rfl (getAttribute_congr fy.1 _)
      | succ k =>
        rw [List.getElem?_cons_succ] at ha hc
        obtain ⟨j1, j2, j3, j4, j5⟩ := i5 k a c ha hc
        have hma := List.mem_of_getElem? ha
        have hmc := List.mem_of_getElem? hc
        have ga := od.others a (by
          rintro (rfl | rfl)
          · exact hxx hma
          · exact hyy.1 hma)
        have gc := od.others c (by
          rintro (rfl | rfl)
          · exact hxys hmc
          · exact hyy.2.1 hmc)
        rw [List.getElem?_tail] at j4 j5
        refine ⟨j1, j2, j3, ?_, ?_⟩
        · exact j4.congr (getAttribute_congr ga.1 _).symm rfl
        · exact j5.congr (getAttribute_congr gc.1 _).symm rfl

/-- **C106.** A call that succeeds changes nothing in the dataset but the vectors and the standard names of the variables it names: these become
the components of vectors, towards longitude and latitude or along the axes of the grid, and get the standard names, as far as these are given. -/
theorem C106_dataset (W : World V K D) (b : Bool) (xs ys sx sy : List String) (s s' : State V CS K) (hn : (xs ++ ys).Nodup)
    (h : rotateVectors W b xs ys sx sy s = (s', .ok ())) :
    OnlyVectors s.cdm s'.cdm (fun n => n ∈ xs ∨ n ∈ ys) ∧
    ∀ (k : ℕ) (x y : String), xs[k]? = some x → ys[k]? = some y →
      IsComponent s'.cdm x y (if b then .lon else .x) ∧ IsComponent s'.cdm y x (if b then .lat else .y) ∧
      Named W s.cdm s'.cdm x sx[k]? ∧ Named W s.cdm s'.cdm y sy[k]? := by
  have hd : directions b = (if b then Dir.lon else .x, if b then Dir.lat else .y) := by cases b <;> rfl
  unfold rotateVectors at h
  split_ifs at h with h1 h2 h3
  · cases (Prod.mk.inj h).2
  · obtain ⟨rfl, -⟩ := Prod.mk.inj h
    subst h2
    exact ⟨.refl _ _, fun k x y hx => by simp at hx⟩
  · cases (Prod.mk.inj h).2
  · obtain ⟨-, -, -, h4, h5⟩ := rotatePairs_ok xs ys sx sy s s' (by simpa using h1) hn h
    refine ⟨h4, fun k x y hx hy => ?_⟩
    obtain ⟨-, h6⟩ := h5 k x y hx hy
    rwa [hd] at h6

/-- **C106.** Lists of different length are refused, nothing is done for empty lists, and a dataset without projections, a component that does
not belong to one and components of different ones are refused. -/
theorem C106_refused (W : World V K D) (b : Bool) (xs ys sx sy : List String) (s : State V CS K) :
    (xs.length ≠ ys.length → rotateVectors W b xs ys sx sy s = (s, .throws)) ∧
    (rotateVectors W b [] [] sx sy s = (s, .ok ())) ∧
    (xs.length = ys.length → xs ≠ [] → W.systems = [] → rotateVectors W b xs ys sx sy s = (s, .throws)) ∧
    ((∃ (k : ℕ) (x y : String), xs[k]? = some x ∧ ys[k]? = some y ∧ (W.system x = none ∨ W.system y ≠ W.system x)) →
      (rotateVectors W b xs ys sx sy s).2 ≠ .ok ()) := by
  refine ⟨fun h => by simp [rotateVectors, h], by simp [rotateVectors], fun h1 h2 h3 => by simp [rotateVectors, h1, h2, h3], ?_⟩
  rintro ⟨k, x, y, hx, hy, hs⟩ hok
  unfold rotateVectors at hok
  split_ifs at hok with h1 h2 h3
  · subst h2; simp at hx
  · clear h2 h3
    have key : ∀ (xs ys sx sy : List String) (k : ℕ) (s : State V CS K), xs[k]? = some x → ys[k]? = some y →
        (rotatePairs W b xs ys sx sy s).2 ≠ .ok () := by
      intro xs
      induction xs with
      | nil => intro ys sx sy k s hx; simp at hx
      | cons a xs ih =>
        intro ys sx sy k s hx hy hok
        cases ys with
        | nil => simp at hy
        | cons c ys =>
          obtain ⟨t, e, h⟩ := andThen_ok (s := (rotatePairs W b (a :: xs) (c :: ys) sx sy s).1) (by
            rw [rotatePairs] at hok ⊢
            exact Prod.ext rfl hok)
          cases k with
          | zero =>
            obtain rfl : a = x := by simpa using hx
            obtain rfl : c = y := by simpa using hy
            unfold rotatePair at e
            split at e
            case h_2 => cases (Prod.mk.inj e).2
            case h_1 p q hp hq =>
              obtain ⟨s1, e1, en⟩ := andThen_ok e
              obtain ⟨s2, e2, enn⟩ := andThen_ok en
              obtain ⟨s3, e3, ennn⟩ := andThen_ok enn
              obtain ⟨s4, e4, ennnn⟩ := andThen_ok ennn
              by_cases hpq : p ≠ q
              · rw [if_pos hpq] at ennnn; cases (Prod.mk.inj ennnn).2
              rw [hp, hq] at hs
              rw [not_not] at hpq
              rcases hs with hs | hs
              · cases hs
              · exact hs (by rw [hpq])
          | succ k =>
            exact ih ys sx.tail sy.tail k t (by simpa using hx) (by simpa using hy) (by rw [h])
    exact key xs ys sx sy k s hx hy hok

end Calls

end Fimex.Rotate
