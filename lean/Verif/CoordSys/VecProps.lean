import Verif.CoordSys.VecModel
import Verif.CoordSys.CfProps

/-!
# C98: vectors

What is a vector is said without the program: two variables that name each other as counterpart, on the same dimensions, whose standard
names begin with the two names of one line of a table.
-/

namespace Fimex.Vectors

open Cdm Cf

variable {V CS Pr : Type} (L : Lib V Pr)

/-! ## Specification -/

/-- The standard name of a variable begins with the given name, and has no line breaks. -/
def StartsWith (c : CDM Vec V CS) (n sn : String) : Prop :=
  ∃ l a rest, c.attrs n = some l ∧ (l.find? fun b => b.name == "standard_name") = some a ∧
    (L.text a.value).toList = sn.toList ++ rest ∧ dotStar (L.text a.value) = true

/-- Two components of a vector by their standard names. -/
def CfPair (c : CDM Vec V CS) (x y : Var Vec) (dx dy : Dir) : Prop :=
  ∃ t ∈ vectorTable, StartsWith L c x.name t.1 ∧ StartsWith L c y.name t.2.1 ∧ x.shape = y.shape ∧ dx = t.2.2.1 ∧ dy = t.2.2.2

/-- Two components of a vector by the names WRF has for them. -/
def WrfPair (x y : Var Vec) (dx dy : Dir) : Prop :=
  ((x.name = "U" ∧ y.name = "V") ∨ (x.name = "UAH" ∧ y.name = "VAH")) ∧ dx = .x ∧ dy = .y

/-- Two variables name each other as the other component. -/
def Mutual (x y : Var Vec) : Prop :=
  x.payload.counterpart = y.name ∧ y.payload.counterpart = x.name ∧ x.name ≠ y.name

/-- Two variables that are made the components of a vector. -/
def NewPair (c : CDM Vec V CS) (x y : Var Vec) : Prop :=
  Mutual x y ∧ ((cfIsMine L c = true ∨ wrfIsMine c = false) ∧ CfPair L c x y x.payload.direction y.payload.direction ∨
    wrfIsMine c = true ∧ WrfPair x y x.payload.direction y.payload.direction)

/-- A variable of the dataset that is not a component of a vector. -/
def Plain (c : CDM Vec V CS) (n : String) : Prop := ∀ v ∈ c.vars, v.name = n → v.payload.counterpart = ""

/-- Names of variables are different and not empty. -/
def GoodNames (c : CDM Vec V CS) : Prop := (c.vars.map fun v : Var Vec => v.name).Nodup ∧ ∀ v ∈ c.vars, v.name ≠ ""

/-! ## Lemmas -/

/-- One dataset is the other one up to vectors. -/
structure Alike (c0 c : CDM Vec V CS) : Prop where
  attrs : c.attrs = c0.attrs
  dims : c.dims = c0.dims
  vars : c.vars.map (fun v : Var Vec => (v.name, v.shape)) = c0.vars.map fun v : Var Vec => (v.name, v.shape)

theorem Alike.refl (c : CDM Vec V CS) : Alike c c := ⟨rfl, rfl, rfl⟩

theorem Alike.names {c0 c : CDM Vec V CS} (h : Alike c0 c) :
    c.vars.map (fun v : Var Vec => v.name) = c0.vars.map fun v : Var Vec => v.name := by
  have := congrArg (List.map Prod.fst) h.vars
  simpa [List.map_map, Function.comp_def] using this

theorem Alike.good {c0 c : CDM Vec V CS} (h : Alike c0 c) (hg : GoodNames c0) : GoodNames c := by
  refine ⟨h.names ▸ hg.1, fun v hv he => ?_⟩
  have : v.name ∈ c0.vars.map fun v : Var Vec => v.name := h.names ▸ List.mem_map_of_mem hv
  obtain ⟨w, hw, hn⟩ := List.mem_map.mp this
  exact hg.2 w hw (hn.trans he)

theorem Alike.back {c0 c : CDM Vec V CS} (h : Alike c0 c) {v : Var Vec} (hv : v ∈ c.vars) :
    ∃ w ∈ c0.vars, w.name = v.name ∧ w.shape = v.shape := by
  have : (v.name, v.shape) ∈ c0.vars.map fun v : Var Vec => (v.name, v.shape) :=
    h.vars ▸ List.mem_map_of_mem (f := fun v : Var Vec => (v.name, v.shape)) hv
  obtain ⟨w, hw, hn⟩ := List.mem_map.mp this
  exact ⟨w, hw, (Prod.mk.inj hn).1, (Prod.mk.inj hn).2⟩

theorem Alike.forth {c0 c : CDM Vec V CS} (h : Alike c0 c) {v : Var Vec} (hv : v ∈ c0.vars) :
    ∃ w ∈ c.vars, w.name = v.name ∧ w.shape = v.shape := by
  have : (v.name, v.shape) ∈ c.vars.map fun v : Var Vec => (v.name, v.shape) :=
    h.vars ▸ List.mem_map_of_mem (f := fun v : Var Vec => (v.name, v.shape)) hv
  obtain ⟨w, hw, hn⟩ := List.mem_map.mp this
  exact ⟨w, hw, (Prod.mk.inj hn).1, (Prod.mk.inj hn).2⟩

theorem Alike.trans {a b c : CDM Vec V CS} (h1 : Alike a b) (h2 : Alike b c) : Alike a c :=
  ⟨h2.attrs.trans h1.attrs, h2.dims.trans h1.dims, h2.vars.trans h1.vars⟩

theorem alike_setVec (c : CDM Vec V CS) (n p : String) (d : Dir) : Alike c (setVec c n p d) := by
  refine ⟨rfl, rfl, ?_⟩
  rw [setVec, List.map_map]
  refine List.map_congr_left fun v _ => ?_
  by_cases h : v.name = n <;> simp [h]

theorem getVariable_ok {c : CDM Vec V CS} {n : String} {v : Var Vec} (h : getVariable c n = .ok v) : v ∈ c.vars ∧ v.name = n := by
  unfold getVariable at h
  cases hf : c.vars.find? fun v => v.name == n with
  | none => simp [hf] at h
  | some w =>
    simp only [hf, Res.ok.injEq] at h
    subst h
    exact ⟨List.mem_of_find?_eq_some hf, by simpa using List.find?_some hf⟩

theorem getVariable_mem {c : CDM Vec V CS} (hg : GoodNames c) {v : Var Vec} (hv : v ∈ c.vars) : getVariable c v.name = .ok v := by
  unfold getVariable
  cases hf : c.vars.find? fun w => w.name == v.name with
  | none => simpa using (List.find?_eq_none.mp hf) v hv
  | some w =>
    have hw := List.mem_of_find?_eq_some hf
    have hn : w.name = v.name := by simpa using List.find?_some hf
    have := List.inj_on_of_nodup_map hg.1 hw hv hn
    simp [this]

theorem same_name {c : CDM Vec V CS} (hg : GoodNames c) {v w : Var Vec} (hv : v ∈ c.vars) (hw : w ∈ c.vars) (h : v.name = w.name) : v = w :=
  List.inj_on_of_nodup_map hg.1 hv hw h

/-- Connecting two variables. -/
def connect (c : CDM Vec V CS) (x y : String) (dx dy : Dir) : CDM Vec V CS := setVec (setVec c x y dx) y x dy

theorem mem_connect {c : CDM Vec V CS} {x y : String} {dx dy : Dir} (hxy : x ≠ y) (v : Var Vec) :
    v ∈ (connect c x y dx dy).vars ↔ ∃ w ∈ c.vars, v =
      if w.name = x then { w with payload := ⟨y, dx⟩ } else if w.name = y then { w with payload := ⟨x, dy⟩ } else w := by
  unfold connect setVec
  simp only [List.mem_map, List.map_map]
  constructor
  · rintro ⟨w, hw, rfl⟩
    refine ⟨w, hw, ?_⟩
    by_cases h1 : w.name = x
    · simp [h1, hxy]
    · simp [h1]
  · rintro ⟨w, hw, rfl⟩
    refine ⟨w, hw, ?_⟩
    by_cases h1 : w.name = x
    · simp [h1, hxy]
    · simp [h1]

theorem alike_connect (c : CDM Vec V CS) (x y : String) (dx dy : Dir) : Alike c (connect c x y dx dy) :=
  (alike_setVec _ _ _ _).trans (alike_setVec _ _ _ _)

/-- What has become of the vectors. -/
structure Good (c0 c : CDM Vec V CS) : Prop where
  alike : Alike c0 c
  kept : ∀ v ∈ c0.vars, v.payload.counterpart ≠ "" → v ∈ c.vars
  new : ∀ v ∈ c.vars, v ∈ c0.vars ∨ (Plain c0 v.name ∧ ∃ w ∈ c.vars, Plain c0 w.name ∧ (NewPair L c0 v w ∨ NewPair L c0 w v))

theorem Good.refl (c : CDM Vec V CS) : Good L c c := ⟨.refl c, fun _ h _ => h, fun _ h => .inl h⟩

variable {L}

theorem Good.plain {c0 c : CDM Vec V CS} (hg : GoodNames c0) (h : Good L c0 c) {v : Var Vec} (hv : v ∈ c.vars) (hp : v.payload.counterpart = "") :
    v ∈ c0.vars := by
  rcases h.new v hv with h1 | ⟨_, w, hw, _, h2⟩
  · exact h1
  · have hn := (h.alike.good hg).2 w hw
    rcases h2 with h2 | h2
    · exact absurd (h2.1.1.symm.trans hp) hn
    · exact absurd (h2.1.2.1.symm.trans hp) hn

theorem Good.connected {c0 c : CDM Vec V CS} (hg : GoodNames c0) (h : Good L c0 c) {xv yv : Var Vec} (hx : xv ∈ c.vars) (hy : yv ∈ c.vars)
    (hxp : xv.payload.counterpart = "") (hyp : yv.payload.counterpart = "") (hne : xv.name ≠ yv.name) {dx dy : Dir}
    (hr : (cfIsMine L c0 = true ∨ wrfIsMine c0 = false) ∧ CfPair L c0 xv yv dx dy ∨ wrfIsMine c0 = true ∧ WrfPair xv yv dx dy) : Good L c0 (connect c xv.name yv.name dx dy) := by
  have hgc := h.alike.good hg
  have hx0 := h.plain hg hx hxp
  have hy0 := h.plain hg hy hyp
  have px : Plain c0 xv.name := fun v hv hn => by rw [same_name hg hv hx0 hn]; exact hxp
  have py : Plain c0 yv.name := fun v hv hn => by rw [same_name hg hv hy0 hn]; exact hyp
  have stay : ∀ v ∈ c.vars, v.payload.counterpart ≠ "" → v ∈ (connect c xv.name yv.name dx dy).vars := by
    intro v hv hc
    refine (mem_connect hne v).mpr ⟨v, hv, ?_⟩
    rw [if_neg fun hn => hc (by rw [same_name hgc hv hx hn]; exact hxp), if_neg fun hn => hc (by rw [same_name hgc hv hy hn]; exact hyp)]
  have hxm : { xv with payload := ⟨yv.name, dx⟩ } ∈ (connect c xv.name yv.name dx dy).vars :=
    (mem_connect hne _).mpr ⟨xv, hx, by simp⟩
  have hym : { yv with payload := ⟨xv.name, dy⟩ } ∈ (connect c xv.name yv.name dx dy).vars :=
    (mem_connect hne _).mpr ⟨yv, hy, by simp [Ne.symm hne]⟩
  have hnew : NewPair L c0 { xv with payload := ⟨yv.name, dx⟩ } { yv with payload := ⟨xv.name, dy⟩ } := ⟨⟨rfl, rfl, hne⟩, hr⟩
  refine ⟨h.alike.trans (alike_connect _ _ _ _ _), fun v hv hc => stay v (h.kept v hv hc) hc, fun v hv => ?_⟩
  obtain ⟨w, hw, rfl⟩ := (mem_connect hne v).mp hv
  by_cases h1 : w.name = xv.name
  · have := same_name hgc hw hx h1
    subst this
    rw [if_pos rfl]
    exact .inr ⟨px, _, hym, py, .inl hnew⟩
  rw [if_neg h1]
  by_cases h2 : w.name = yv.name
  · have := same_name hgc hw hy h2
    subst this
    rw [if_pos rfl]
    exact .inr ⟨py, _, hxm, px, .inr hnew⟩
  rw [if_neg h2]
  rcases h.new w hw with h3 | ⟨h3, u, hu, h4, h5⟩
  · exact .inl h3
  · refine .inr ⟨h3, u, stay u hu ?_, h4, h5⟩
    rcases h5 with h5 | h5
    · exact fun e => hgc.2 w hw (h5.1.2.1.symm.trans e)
    · exact fun e => hgc.2 w hw (h5.1.1.symm.trans e)

theorem named_iff {c : CDM Vec V CS} (sn n : String) : n ∈ named L c sn ↔ (∃ v ∈ c.vars, v.name = n) ∧ StartsWith L c n sn := by
  unfold named findVariables StartsWith
  simp only [List.mem_filterMap]
  have chk : ∀ n, checkVariableAttribute c n "standard_name" (fun v => sn.toList.isPrefixOf (L.text v).toList && dotStar (L.text v)) = true ↔
      ∃ l a rest, c.attrs n = some l ∧ (l.find? fun b => b.name == "standard_name") = some a ∧
        (L.text a.value).toList = sn.toList ++ rest ∧ dotStar (L.text a.value) = true := by
    intro n
    unfold checkVariableAttribute
    cases h1 : c.attrs n with
    | none => simp
    | some l =>
      cases h2 : l.find? fun b => b.name == "standard_name" with
      | none => simp [h2]
      | some a =>
        simp only [Bool.and_eq_true, List.isPrefixOf_iff_prefix, Option.some.injEq, exists_and_left, exists_eq_left', h2]
        constructor
        · rintro ⟨⟨r, hr⟩, hd⟩
          exact ⟨r, hr.symm, hd⟩
        · rintro ⟨r, hr, hd⟩
          exact ⟨⟨r, hr.symm⟩, hd⟩
  constructor
  · rintro ⟨v, hv, he⟩
    by_cases hc : checkVariableAttribute c v.name "standard_name" (fun v => sn.toList.isPrefixOf (L.text v).toList && dotStar (L.text v)) = true
    · simp only [List.find?_cons, List.find?_nil, hc, Bool.not_true] at he
      cases he
      exact ⟨⟨v, hv, rfl⟩, (chk _).mp hc⟩
    · simp only [List.find?_cons, hc, Bool.not_false] at he
      cases he
  · rintro ⟨⟨v, hv, rfl⟩, hs⟩
    refine ⟨v, hv, ?_⟩
    simp only [List.find?_cons, List.find?_nil, (chk _).mpr hs, Bool.not_true]

theorem StartsWith.alike {c0 c : CDM Vec V CS} (h : Alike c0 c) {n sn : String} (hs : StartsWith L c n sn) : StartsWith L c0 n sn := by
  unfold StartsWith at *
  rwa [← h.attrs]

theorem StartsWith.alike' {c0 c : CDM Vec V CS} (h : Alike c0 c) {n sn : String} (hs : StartsWith L c0 n sn) : StartsWith L c n sn := by
  unfold StartsWith at *
  rwa [h.attrs]

/-- The bytes of a text. -/
def bytes (s : String) : List Nat := s.toByteArray.data.toList.map (·.toNat)

theorem bytes_prefix {a b : String} (h : a.toList <+: b.toList) : bytes a <+: bytes b := by
  obtain ⟨r, hr⟩ := h
  refine ⟨r.utf8Encode.data.toList.map (·.toNat), ?_⟩
  unfold bytes
  rw [← String.utf8Encode_toList (b := b), ← hr, List.utf8Encode_append, String.utf8Encode_toList, ByteArray.data_append,
    Array.toList_append, List.map_append]

theorem table_bytes : vectorTable.all (fun t => !(bytes t.1).isPrefixOf (bytes t.2.1) && !(bytes t.2.1).isPrefixOf (bytes t.1)) = true := by
  decide +kernel

/-- No name of a line begins with the other one. -/
theorem table_apart : ∀ t ∈ vectorTable, ¬ t.1.toList <+: t.2.1.toList ∧ ¬ t.2.1.toList <+: t.1.toList := by
  intro t ht
  have := List.all_eq_true.mp table_bytes t ht
  simp only [Bool.and_eq_true, Bool.not_eq_true', ← Bool.not_eq_true, List.isPrefixOf_iff_prefix] at this
  exact ⟨fun h => this.1 (bytes_prefix h), fun h => this.2 (bytes_prefix h)⟩

theorem starts_apart {c : CDM Vec V CS} {t : String × String × Dir × Dir} (ht : t ∈ vectorTable) {n : String} (h1 : StartsWith L c n t.1) (h2 : StartsWith L c n t.2.1) :
    False := by
  obtain ⟨l, a, r, e1, e2, e3, -⟩ := h1
  obtain ⟨l', a', r', e1', e2', e3', -⟩ := h2
  cases e1.symm.trans e1'
  cases e2.symm.trans e2'
  have p1 : t.1.toList <+: (L.text a.value).toList := ⟨r, e3.symm⟩
  have p2 : t.2.1.toList <+: (L.text a.value).toList := ⟨r', e3'.symm⟩
  rcases List.prefix_or_prefix_of_prefix p1 p2 with h | h
  · exact (table_apart t ht).1 h
  · exact (table_apart t ht).2 h

theorem isVector_iff (v : Var Vec) : isVector v = true ↔ v.payload.counterpart ≠ "" := by simp [isVector]

theorem isVector_false (v : Var Vec) : isVector v = false ↔ v.payload.counterpart = "" := by simp [isVector]

/-- One step: nothing happens, or two variables are connected. -/
theorem pairStep_cases (ys : List String) (dx dy : Dir) (c : CDM Vec V CS) (x : String) :
    (pairStep ys dx dy c x = c ∧ ∀ xv, getVariable c x = .ok xv → xv.payload.counterpart ≠ "" ∨
      ∀ y ∈ ys, ∀ yv, getVariable c y = .ok yv → xv.shape = yv.shape → yv.payload.counterpart ≠ "") ∨
    ∃ xv yv y, getVariable c x = .ok xv ∧ xv.payload.counterpart = "" ∧ y ∈ ys ∧ getVariable c y = .ok yv ∧ yv.payload.counterpart = "" ∧
      xv.shape = yv.shape ∧ pairStep ys dx dy c x = connect c x y dx dy := by
  unfold pairStep
  cases hx : getVariable c x with
  | throws => exact .inl ⟨rfl, fun xv h => by cases h⟩
  | ub => exact .inl ⟨rfl, fun xv h => by cases h⟩
  | ok xv =>
    by_cases hv : isVector xv = true
    · exact .inl ⟨by simp [hv], fun w h => by cases h; exact .inl ((isVector_iff _).mp hv)⟩
    · simp only [hv, Bool.false_eq_true, if_false]
      cases hf : ys.find? fun y => match getVariable c y with
        | .ok yv => !isVector yv && xv.shape == yv.shape
        | _ => false with
      | none =>
        refine .inl ⟨rfl, fun w h => .inr fun y hy yv hyv hs => ?_⟩
        cases h
        have := List.find?_eq_none.mp hf y hy
        simp only [hyv, hs, beq_self_eq_true, Bool.and_true, Bool.not_eq_true', Bool.not_eq_false] at this
        exact (isVector_iff _).mp this
      | some y =>
        have h1 := List.find?_some hf
        have h2 := List.mem_of_find?_eq_some hf
        cases hy : getVariable c y with
        | throws => simp [hy] at h1
        | ub => simp [hy] at h1
        | ok yv =>
          simp only [hy, Bool.and_eq_true, Bool.not_eq_true', beq_iff_eq] at h1
          exact .inr ⟨xv, yv, y, rfl, (isVector_false _).mp (by simpa using hv), h2, hy, (isVector_false _).mp h1.1, h1.2, rfl⟩

theorem Good.pairStep {c0 c : CDM Vec V CS} (hg : GoodNames c0) (hm : cfIsMine L c0 = true ∨ wrfIsMine c0 = false) {t : String × String × Dir × Dir} (ht : t ∈ vectorTable) (h : Good L c0 c)
    {ys : List String} (hys : ∀ y ∈ ys, StartsWith L c0 y t.2.1) {x : String} (hx : StartsWith L c0 x t.1) :
    Good L c0 (pairStep ys t.2.2.1 t.2.2.2 c x) := by
  rcases pairStep_cases ys t.2.2.1 t.2.2.2 c x with ⟨he, -⟩ | ⟨xv, yv, y, h1, h2, h3, h4, h5, h6, he⟩
  · rw [he]; exact h
  · rw [he]
    obtain ⟨m1, rfl⟩ := getVariable_ok h1
    obtain ⟨m2, rfl⟩ := getVariable_ok h4
    refine h.connected hg m1 m2 h2 h5 ?_ (.inl ⟨hm, t, ht, hx, hys _ h3, h6, rfl, rfl⟩)
    intro e
    exact starts_apart ht hx (e ▸ hys _ h3)

theorem Good.steps {c0 : CDM Vec V CS} (hg : GoodNames c0) (hm : cfIsMine L c0 = true ∨ wrfIsMine c0 = false) {t : String × String × Dir × Dir} (ht : t ∈ vectorTable) (ys : List String)
    (hys : ∀ y ∈ ys, StartsWith L c0 y t.2.1) : ∀ (xs : List String) (c : CDM Vec V CS), (∀ x ∈ xs, StartsWith L c0 x t.1) → Good L c0 c →
      Good L c0 (xs.foldl (Vectors.pairStep ys t.2.2.1 t.2.2.2) c)
  | [], _, _, h => h
  | x :: xs, _, hx, h => Good.steps hg hm ht ys hys xs _ (fun z hz => hx z (List.mem_cons_of_mem _ hz))
      (h.pairStep hg hm ht hys (hx x List.mem_cons_self))

theorem Good.line {c0 c : CDM Vec V CS} (hg : GoodNames c0) (hm : cfIsMine L c0 = true ∨ wrfIsMine c0 = false) {t : String × String × Dir × Dir} (ht : t ∈ vectorTable) (h : Good L c0 c) :
    Good L c0 (enhanceVectors L c t) :=
  Good.steps hg hm ht _ (fun _ hy => ((named_iff _ _).mp hy).2.alike h.alike) _ _ (fun _ hx => ((named_iff _ _).mp hx).2.alike h.alike) h

theorem Good.lines {c0 : CDM Vec V CS} (hg : GoodNames c0) (hm : cfIsMine L c0 = true ∨ wrfIsMine c0 = false) : ∀ (ts : List (String × String × Dir × Dir)) (c : CDM Vec V CS),
    (∀ t ∈ ts, t ∈ vectorTable) → Good L c0 c → Good L c0 (ts.foldl (enhanceVectors L) c)
  | [], _, _, h => h
  | t :: ts, _, ht, h => Good.lines hg hm ts _ (fun z hz => ht z (List.mem_cons_of_mem _ hz)) (h.line hg hm (ht t List.mem_cons_self))

theorem Good.cf {c0 c : CDM Vec V CS} (hg : GoodNames c0) (hm : cfIsMine L c0 = true ∨ wrfIsMine c0 = false) (h : Good L c0 c) : Good L c0 (enhanceCF L c) :=
  Good.lines hg hm _ _ (fun _ h => h) h

theorem wrfStep_cases (c : CDM Vec V CS) (p : String × String) :
    (wrfStep c p = c ∧ ∀ xv yv, getVariable c p.1 = .ok xv → getVariable c p.2 = .ok yv → xv.payload.counterpart ≠ "" ∨ yv.payload.counterpart ≠ "") ∨
    ∃ xv yv, getVariable c p.1 = .ok xv ∧ getVariable c p.2 = .ok yv ∧ xv.payload.counterpart = "" ∧ yv.payload.counterpart = "" ∧
      wrfStep c p = connect c p.1 p.2 .x .y := by
  unfold wrfStep
  cases hx : getVariable c p.1 with
  | throws => exact .inl ⟨rfl, fun xv yv h => by cases h⟩
  | ub => exact .inl ⟨rfl, fun xv yv h => by cases h⟩
  | ok xv =>
    cases hy : getVariable c p.2 with
    | throws => exact .inl ⟨rfl, fun xv yv _ h => by cases h⟩
    | ub => exact .inl ⟨rfl, fun xv yv _ h => by cases h⟩
    | ok yv =>
      by_cases h1 : isVector xv = true
      · exact .inl ⟨by simp [h1], fun a b e1 e2 => by cases e1; exact .inl ((isVector_iff _).mp h1)⟩
      · by_cases h2 : isVector yv = true
        · exact .inl ⟨by simp [h2], fun a b e1 e2 => by cases e2; exact .inr ((isVector_iff _).mp h2)⟩
        · refine .inr ⟨xv, yv, rfl, rfl, (isVector_false _).mp (by simpa using h1), (isVector_false _).mp (by simpa using h2), ?_⟩
          simp only [h1, h2, Bool.false_eq_true, if_false]
          rw [(getVariable_ok hx).2, (getVariable_ok hy).2]
          rfl

theorem Good.wrfStep {c0 c : CDM Vec V CS} (hg : GoodNames c0) (hm : wrfIsMine c0 = true) (h : Good L c0 c) {p : String × String}
    (hp : p = ("U", "V") ∨ p = ("UAH", "VAH")) : Good L c0 (Vectors.wrfStep c p) := by
  rcases wrfStep_cases c p with ⟨he, -⟩ | ⟨xv, yv, h1, h2, h3, h4, he⟩
  · rw [he]; exact h
  · rw [he]
    obtain ⟨m1, n1⟩ := getVariable_ok h1
    obtain ⟨m2, n2⟩ := getVariable_ok h2
    rw [← n1, ← n2]
    refine h.connected hg m1 m2 h3 h4 ?_ (.inr ⟨hm, ?_, rfl, rfl⟩)
    · rw [n1, n2]
      rcases hp with rfl | rfl <;> decide
    · rw [n1, n2]
      rcases hp with rfl | rfl
      · exact .inl ⟨rfl, rfl⟩
      · exact .inr ⟨rfl, rfl⟩

theorem Good.wrf {c0 c : CDM Vec V CS} (hg : GoodNames c0) (hm : wrfIsMine c0 = true) (h : Good L c0 c) : Good L c0 (enhanceWRF c) :=
  (h.wrfStep hg hm (.inl rfl)).wrfStep hg hm (.inr rfl)

theorem cfIsMine_alike {c0 c : CDM Vec V CS} (h : Alike c0 c) : cfIsMine L c = cfIsMine L c0 := by
  unfold cfIsMine attrText getAttribute
  rw [h.attrs]

theorem wrfIsMine_alike {c0 c : CDM Vec V CS} (h : Alike c0 c) : wrfIsMine c = wrfIsMine c0 := by
  unfold wrfIsMine hasDimension getAttribute
  rw [h.attrs, h.dims]

theorem Good.all {c0 : CDM Vec V CS} (hg : GoodNames c0) : Good L c0 (enhance L c0) := by
  have h0 := Good.refl L c0
  have h1 : Good L c0 (if cfIsMine L c0 then enhanceCF L c0 else c0) := by
    split
    · rename_i hm
      exact h0.cf hg (.inl hm)
    · exact h0
  unfold enhance
  dsimp only
  generalize (if cfIsMine L c0 then enhanceCF L c0 else c0) = c1 at h1
  have hw := wrfIsMine_alike h1.alike
  have h2 : Good L c0 (if wrfIsMine c1 then enhanceWRF c1 else c1) := by
    split
    · rename_i hm
      exact h1.wrf hg (hw ▸ hm)
    · exact h1
  split
  · exact h2
  · rename_i hn
    refine h2.cf hg (.inr ?_)
    rw [← hw]
    simp only [Bool.or_eq_true, not_or, Bool.not_eq_true] at hn
    exact hn.2

/-- A variable that is a component of a vector. -/
def Component (c : CDM Vec V CS) (n : String) : Prop := ∃ v ∈ c.vars, v.name = n ∧ v.payload.counterpart ≠ ""

theorem Component.connect {c : CDM Vec V CS} {n x y : String} (h : Component c n) (hx : x ≠ "") (hy : y ≠ "") (hxy : x ≠ y) (dx dy : Dir) :
    Component (Vectors.connect c x y dx dy) n := by
  obtain ⟨v, hv, rfl, hc⟩ := h
  refine ⟨_, (mem_connect hxy _).mpr ⟨v, hv, rfl⟩, ?_, ?_⟩
  · split
    · rfl
    · split <;> rfl
  · split
    · exact hy
    · split
      · exact hx
      · exact hc

theorem component_connected {c : CDM Vec V CS} {xv : Var Vec} {y : String} (hx : xv ∈ c.vars) (hy : y ≠ "") (hxy : xv.name ≠ y) (dx dy : Dir) :
    Component (connect c xv.name y dx dy) xv.name :=
  ⟨_, (mem_connect hxy _).mpr ⟨xv, hx, rfl⟩, by simp, by simpa using hy⟩

theorem pairStep_component {c : CDM Vec V CS} (hg : GoodNames c) {ys : List String} {x : String} (hxy : x ∉ ys) (dx dy : Dir) :
    (∀ n, Component c n → Component (pairStep ys dx dy c x) n) ∧ Alike c (pairStep ys dx dy c x) ∧
    ∀ y ∈ ys, ∀ xv ∈ c.vars, ∀ yv ∈ c.vars, xv.name = x → yv.name = y → xv.shape = yv.shape →
      Component (pairStep ys dx dy c x) x ∨ Component (pairStep ys dx dy c x) y := by
  rcases pairStep_cases ys dx dy c x with ⟨he, hn⟩ | ⟨xv, yv, y, h1, h2, h3, h4, h5, h6, he⟩
  · rw [he]
    refine ⟨fun _ h => h, .refl _, fun y hy xv hxv yv hyv ex ey hs => ?_⟩
    subst ex ey
    rcases hn xv (getVariable_mem hg hxv) with h | h
    · exact .inl ⟨xv, hxv, rfl, h⟩
    · exact .inr ⟨yv, hyv, rfl, h _ hy yv (getVariable_mem hg hyv) hs⟩
  · rw [he]
    obtain ⟨m1, rfl⟩ := getVariable_ok h1
    obtain ⟨m2, rfl⟩ := getVariable_ok h4
    have hne : xv.name ≠ yv.name := fun e => hxy (e ▸ h3)
    exact ⟨fun _ h => h.connect (hg.2 _ m1) (hg.2 _ m2) hne _ _, alike_connect _ _ _ _ _, fun _ _ _ _ _ _ _ _ _ =>
      .inl (component_connected m1 (hg.2 _ m2) hne _ _)⟩

theorem steps_component (ys : List String) (dx dy : Dir) : ∀ (xs : List String) (c : CDM Vec V CS), GoodNames c → (∀ x ∈ xs, x ∉ ys) →
    (∀ n, Component c n → Component (xs.foldl (pairStep ys dx dy) c) n) ∧ Alike c (xs.foldl (pairStep ys dx dy) c) ∧
    ∀ x ∈ xs, ∀ y ∈ ys, ∀ xv ∈ c.vars, ∀ yv ∈ c.vars, xv.name = x → yv.name = y → xv.shape = yv.shape →
      Component (xs.foldl (pairStep ys dx dy) c) x ∨ Component (xs.foldl (pairStep ys dx dy) c) y
  | [], c, _, _ => ⟨fun _ h => h, .refl _, fun x hx => by cases hx⟩
  | x :: xs, c, hg, hxy => by
    obtain ⟨a1, a2, a3⟩ := pairStep_component hg (hxy x List.mem_cons_self) dx dy
    obtain ⟨b1, b2, b3⟩ := steps_component ys dx dy xs (pairStep ys dx dy c x) (a2.good hg) fun z hz => hxy z (List.mem_cons_of_mem _ hz)
    refine ⟨fun n h => b1 n (a1 n h), a2.trans b2, fun z hz y hy xv hxv yv hyv ex ey hs => ?_⟩
    rw [List.foldl_cons]
    rcases List.mem_cons.mp hz with rfl | hz
    · exact (a3 y hy xv hxv yv hyv ex ey hs).imp (b1 _) (b1 _)
    · obtain ⟨xv', m1, n1, s1⟩ := a2.forth hxv
      obtain ⟨yv', m2, n2, s2⟩ := a2.forth hyv
      exact b3 z hz y hy xv' m1 yv' m2 (n1.trans ex) (n2.trans ey) (s1.trans (hs.trans s2.symm))

theorem line_component {c : CDM Vec V CS} (hg : GoodNames c) {t : String × String × Dir × Dir} (ht : t ∈ vectorTable) :
    (∀ n, Component c n → Component (enhanceVectors L c t) n) ∧ Alike c (enhanceVectors L c t) ∧
    ∀ xv ∈ c.vars, ∀ yv ∈ c.vars, StartsWith L c xv.name t.1 → StartsWith L c yv.name t.2.1 → xv.shape = yv.shape →
      Component (enhanceVectors L c t) xv.name ∨ Component (enhanceVectors L c t) yv.name := by
  obtain ⟨a1, a2, a3⟩ := steps_component (named L c t.2.1) t.2.2.1 t.2.2.2 (named L c t.1) c hg
    fun x hx hy => starts_apart ht ((named_iff _ _).mp hx).2 ((named_iff _ _).mp hy).2
  exact ⟨a1, a2, fun xv hx yv hy h1 h2 hs => a3 _ ((named_iff _ _).mpr ⟨⟨xv, hx, rfl⟩, h1⟩) _ ((named_iff _ _).mpr ⟨⟨yv, hy, rfl⟩, h2⟩)
    xv hx yv hy rfl rfl hs⟩

theorem lines_component : ∀ (ts : List (String × String × Dir × Dir)) (c : CDM Vec V CS), GoodNames c → (∀ t ∈ ts, t ∈ vectorTable) →
    (∀ n, Component c n → Component (ts.foldl (enhanceVectors L) c) n) ∧ Alike c (ts.foldl (enhanceVectors L) c) ∧
    ∀ t ∈ ts, ∀ xv ∈ c.vars, ∀ yv ∈ c.vars, StartsWith L c xv.name t.1 → StartsWith L c yv.name t.2.1 → xv.shape = yv.shape →
      Component (ts.foldl (enhanceVectors L) c) xv.name ∨ Component (ts.foldl (enhanceVectors L) c) yv.name
  | [], c, _, _ => ⟨fun _ h => h, .refl _, fun t ht => by cases ht⟩
  | t :: ts, c, hg, hts => by
    obtain ⟨a1, a2, a3⟩ := line_component (L := L) hg (hts t List.mem_cons_self)
    obtain ⟨b1, b2, b3⟩ := lines_component ts (enhanceVectors L c t) (a2.good hg) fun z hz => hts z (List.mem_cons_of_mem _ hz)
    refine ⟨fun n h => b1 n (a1 n h), a2.trans b2, fun z hz xv hxv yv hyv h1 h2 hs => ?_⟩
    rw [List.foldl_cons]
    rcases List.mem_cons.mp hz with rfl | hz
    · exact (a3 xv hxv yv hyv h1 h2 hs).imp (b1 _) (b1 _)
    · obtain ⟨xv', m1, n1, s1⟩ := a2.forth hxv
      obtain ⟨yv', m2, n2, s2⟩ := a2.forth hyv
      have := b3 z hz xv' m1 yv' m2 (n1 ▸ h1.alike' a2) (n2 ▸ h2.alike' a2) (s1.trans (hs.trans s2.symm))
      rwa [n1, n2] at this

theorem wrfStep_component {c : CDM Vec V CS} (hg : GoodNames c) {p : String × String} (hp : p = ("U", "V") ∨ p = ("UAH", "VAH")) :
    (∀ n, Component c n → Component (wrfStep c p) n) ∧ Alike c (wrfStep c p) ∧
    ((∃ v ∈ c.vars, v.name = p.1) → (∃ v ∈ c.vars, v.name = p.2) → Component (wrfStep c p) p.1 ∨ Component (wrfStep c p) p.2) := by
  have hne : p.1 ≠ p.2 := by rcases hp with rfl | rfl <;> decide
  rcases wrfStep_cases c p with ⟨he, hn⟩ | ⟨xv, yv, h1, h2, h3, h4, he⟩
  · rw [he]
    refine ⟨fun _ h => h, .refl _, ?_⟩
    rintro ⟨v, hv, ev⟩ ⟨w, hw, ew⟩
    rcases hn v w (ev ▸ getVariable_mem hg hv) (ew ▸ getVariable_mem hg hw) with h | h
    · exact .inl ⟨v, hv, ev, h⟩
    · exact .inr ⟨w, hw, ew, h⟩
  · rw [he]
    obtain ⟨m1, n1⟩ := getVariable_ok h1
    obtain ⟨m2, n2⟩ := getVariable_ok h2
    have e1 : p.1 ≠ "" := n1 ▸ hg.2 _ m1
    have e2 : p.2 ≠ "" := n2 ▸ hg.2 _ m2
    refine ⟨fun _ h => h.connect e1 e2 hne _ _, alike_connect _ _ _ _ _, fun _ _ => .inl ?_⟩
    have := component_connected (y := p.2) m1 e2 (n1 ▸ hne) .x .y
    rwa [n1] at this

theorem wrf_component {c : CDM Vec V CS} (hg : GoodNames c) :
    (∀ n, Component c n → Component (enhanceWRF c) n) ∧ Alike c (enhanceWRF c) ∧
    (∀ p, p = ("U", "V") ∨ p = ("UAH", "VAH") → (∃ v ∈ c.vars, v.name = p.1) → (∃ v ∈ c.vars, v.name = p.2) →
      Component (enhanceWRF c) p.1 ∨ Component (enhanceWRF c) p.2) := by
  obtain ⟨a1, a2, a3⟩ := wrfStep_component hg (p := ("U", "V")) (.inl rfl)
  obtain ⟨b1, b2, b3⟩ := wrfStep_component (a2.good hg) (p := ("UAH", "VAH")) (.inr rfl)
  refine ⟨fun n h => b1 n (a1 n h), a2.trans b2, ?_⟩
  rintro p (rfl | rfl) h1 h2
  · exact (a3 h1 h2).imp (b1 _) (b1 _)
  · refine b3 ?_ ?_
    · obtain ⟨v, hv, e⟩ := h1
      obtain ⟨w, hw, n, -⟩ := a2.forth hv
      exact ⟨w, hw, n.trans e⟩
    · obtain ⟨v, hv, e⟩ := h2
      obtain ⟨w, hw, n, -⟩ := a2.forth hv
      exact ⟨w, hw, n.trans e⟩

/-! ## Theorems -/

/-- **C98.** Names, shapes, order of variables, attributes and dimensions stay, and vectors that were there stay as they were. -/
theorem C98_kept (c : CDM Vec V CS) (hg : GoodNames c) :
    (enhance L c).attrs = c.attrs ∧ (enhance L c).dims = c.dims ∧
    (enhance L c).vars.map (fun v : Var Vec => (v.name, v.shape)) = c.vars.map (fun v : Var Vec => (v.name, v.shape)) ∧
    ∀ v ∈ c.vars, v.payload.counterpart ≠ "" → v ∈ (enhance L c).vars :=
  have h := Good.all (L := L) hg
  ⟨h.alike.attrs, h.alike.dims, h.alike.vars, h.kept⟩

/-- **C98.** Every variable is as before, or it was no component of a vector and is one now, together with another variable that was none
either: the two name each other and, in CF datasets and those of no known convention, their standard names begin with the two names of a line of the
table, their directions are those of the line and they have the same shape; or, in WRF datasets, they are the wind components of WRF. -/
theorem C98_new_vectors (c : CDM Vec V CS) (hg : GoodNames c) (v : Var Vec) (hv : v ∈ (enhance L c).vars) :
    v ∈ c.vars ∨ (Plain c v.name ∧ ∃ w ∈ (enhance L c).vars, Plain c w.name ∧ (NewPair L c v w ∨ NewPair L c w v)) :=
  (Good.all hg).new v hv

/-- **C98.** If all vectors of the dataset have been mutual, they still are: the counterpart of every component is a variable of the same
dataset, another one, whose counterpart is the component. -/
theorem C98_mutual (c : CDM Vec V CS) (hg : GoodNames c)
    (hm : ∀ v ∈ c.vars, v.payload.counterpart ≠ "" → ∃ w ∈ c.vars, Mutual v w) :
    ∀ v ∈ (enhance L c).vars, v.payload.counterpart ≠ "" → ∃ w ∈ (enhance L c).vars, Mutual v w := by
  intro v hv hc
  rcases C98_new_vectors c hg v hv with h | ⟨-, w, hw, -, h⟩
  · obtain ⟨w, hw, hmu⟩ := hm v h hc
    exact ⟨w, (Good.all hg).kept w hw fun e => hg.2 v h (hmu.2.1.symm.trans e), hmu⟩
  · rcases h with h | h
    · exact ⟨w, hw, h.1⟩
    · exact ⟨w, hw, h.1.2.1, h.1.1, Ne.symm h.1.2.2⟩

/-- **C98.** No pair is left over.  In datasets that are CF, or neither CF nor WRF, of two variables of the same shape with the two names of a
line at least one is a component of a vector; in datasets of WRF at least one of the two wind components is. -/
theorem C98_none_left (c : CDM Vec V CS) (hg : GoodNames c) :
    ((cfIsMine L c = true ∨ wrfIsMine c = false) → ∀ t ∈ vectorTable, ∀ x ∈ c.vars, ∀ y ∈ c.vars,
      StartsWith L c x.name t.1 → StartsWith L c y.name t.2.1 → x.shape = y.shape →
        Component (enhance L c) x.name ∨ Component (enhance L c) y.name) ∧
    (wrfIsMine c = true → ∀ x ∈ c.vars, ∀ y ∈ c.vars, (x.name = "U" ∧ y.name = "V") ∨ (x.name = "UAH" ∧ y.name = "VAH") →
        Component (enhance L c) x.name ∨ Component (enhance L c) y.name) := by
  obtain ⟨l1, l2, l3⟩ := lines_component (L := L) vectorTable c hg fun _ h => h
  constructor
  · intro hm t ht x hx y hy h1 h2 hs
    by_cases hc : cfIsMine L c = true
    · have hd := l3 t ht x hx y hy h1 h2 hs
      unfold enhance
      simp only [hc, if_true, Bool.true_or]
      by_cases hw : wrfIsMine (enhanceCF L c) = true
      · rw [if_pos hw]
        exact hd.imp ((wrf_component (l2.good hg)).1 _) ((wrf_component (l2.good hg)).1 _)
      · rw [if_neg hw]; exact hd
    · have hw : wrfIsMine c = false := hm.resolve_left hc
      unfold enhance
      simp only [hc, hw, Bool.false_eq_true, if_false, Bool.or_false]
      exact l3 t ht x hx y hy h1 h2 hs
  · intro hw x hx y hy hn
    have key : ∀ c1 : CDM Vec V CS, Alike c c1 → Component (enhanceWRF c1) x.name ∨ Component (enhanceWRF c1) y.name := by
      intro c1 ha
      obtain ⟨x', hx', ex, -⟩ := ha.forth hx
      obtain ⟨y', hy', ey, -⟩ := ha.forth hy
      rcases hn with ⟨n1, n2⟩ | ⟨n1, n2⟩
      · have := (wrf_component (ha.good hg)).2.2 _ (.inl rfl) ⟨x', hx', ex.trans n1⟩ ⟨y', hy', ey.trans n2⟩
        rwa [n1, n2]
      · have := (wrf_component (ha.good hg)).2.2 _ (.inr rfl) ⟨x', hx', ex.trans n1⟩ ⟨y', hy', ey.trans n2⟩
        rwa [n1, n2]
    unfold enhance
    by_cases hc : cfIsMine L c = true
    · have h1 : Alike c (enhanceCF L c) := l2
      simp only [hc, if_true, Bool.true_or, wrfIsMine_alike h1, hw]
      exact key _ h1
    · simp only [hc, hw, Bool.false_eq_true, if_false, Bool.or_true, if_true]
      exact key _ (.refl c)

/-! ### The table -/

/-- The words of a name, separated by underscores, behind the letters read so far. -/
def wordsFrom (acc : List Nat) : List Nat → List (List Nat)
  | [] => [acc.reverse]
  | ch :: r => if ch = 95 then acc.reverse :: wordsFrom [] r else wordsFrom (ch :: acc) r

/-- The words of a name, as bytes (95 is the underscore). -/
def wordsOf (s : String) : List (List Nat) := wordsFrom [] (bytes s)

/-- Two words of names of components: the same, or one for the first and one for the second direction. -/
def WordPair (a b : List Nat) : Prop :=
  a = b ∨ (a = bytes "x" ∧ b = bytes "y") ∨ (a = bytes "eastward" ∧ b = bytes "northward")

/-- Names along the axes of the grid have a word for an axis or for the grid. -/
def GridName (s : String) : Prop := bytes "x" ∈ wordsOf s ∨ bytes "grid" ∈ wordsOf s

/-- Decides `WordPair`. -/
def pairOk (a b : List Nat) : Bool :=
  a == b || (a == bytes "x" && b == bytes "y") || (a == bytes "eastward" && b == bytes "northward")

/-- Decides whether all words are pairs. -/
def allOk : List (List Nat) → List (List Nat) → Bool
  | [], [] => true
  | a :: l, b :: m => pairOk a b && allOk l m
  | _, _ => false

/-- Decides `GridName`. -/
def gridOk (s : String) : Bool := (wordsOf s).elem (bytes "x") || (wordsOf s).elem (bytes "grid")

theorem allOk_forall : ∀ l m : List (List Nat), allOk l m = true → List.Forall₂ WordPair l m
  | [], [], _ => .nil
  | a :: l, b :: m, h => by
    simp only [allOk, Bool.and_eq_true] at h
    refine .cons ?_ (allOk_forall l m h.2)
    have := h.1
    simp only [pairOk, Bool.or_eq_true, Bool.and_eq_true, beq_iff_eq, or_assoc] at this
    exact this
  | [], _ :: _, h => by simp [allOk] at h
  | _ :: _, [], h => by simp [allOk] at h

theorem gridOk_iff (s : String) : gridOk s = true ↔ GridName s := by simp [gridOk, GridName]

theorem table_words : vectorTable.all (fun t => allOk (wordsOf t.1) (wordsOf t.2.1)) = true := by decide +kernel

theorem table_grid : vectorTable.all (fun t => if gridOk t.1 then t.2.2 == (.x, .y) else t.2.2 == (.lon, .lat)) = true := by
  decide +kernel

/-- **C98.** In every line the two names are different and have the same words apart from `x`/`y` and `eastward`/`northward`, and the
directions are those of the grid exactly for names that speak of the grid or its axes. -/
theorem C98_table : ∀ t ∈ vectorTable, t.1 ≠ t.2.1 ∧ List.Forall₂ WordPair (wordsOf t.1) (wordsOf t.2.1) ∧
    (t.2.2 = (.x, .y) ∧ GridName t.1 ∨ t.2.2 = (.lon, .lat) ∧ ¬ GridName t.1) := by
  intro t ht
  refine ⟨fun e => (table_apart t ht).1 (e ▸ List.prefix_refl _), allOk_forall _ _ (List.all_eq_true.mp table_words t ht), ?_⟩
  have := List.all_eq_true.mp table_grid t ht
  rw [← gridOk_iff]
  by_cases hg : gridOk t.1 = true
  · rw [if_pos hg] at this
    exact .inl ⟨by simpa using this, hg⟩
  · rw [if_neg hg] at this
    exact .inr ⟨by simpa using this, hg⟩

/-- Two variables whose standard names are the two names of a line with the same text behind. -/
def SameEnd (c : CDM Vec V CS) (x y : Var Vec) : Prop :=
  ∃ t ∈ vectorTable, ∃ l a l' a' rest, c.attrs x.name = some l ∧ (l.find? fun b => b.name == "standard_name") = some a ∧
    c.attrs y.name = some l' ∧ (l'.find? fun b => b.name == "standard_name") = some a' ∧
    (L.text a.value).toList = t.1.toList ++ rest ∧ (L.text a'.value).toList = t.2.1.toList ++ rest

/-- **C98.** New vectors outside WRF are components of one quantity (their standard names belong to the same line and go on in the same
way), provided that no two variables of the same shape belong to one line and go on in different ways.
The full property (without that proviso) is violated: `C98_other_quantity`. -/
theorem C98_names_partial (c : CDM Vec V CS) (hg : GoodNames c) (hw : wrfIsMine c = false)
    (hu : ∀ t ∈ vectorTable, ∀ x ∈ c.vars, ∀ y ∈ c.vars, x.shape = y.shape → StartsWith L c x.name t.1 → StartsWith L c y.name t.2.1 →
      SameEnd (L := L) c x y) (v : Var Vec) (hv : v ∈ (enhance L c).vars) :
    v ∈ c.vars ∨ ∃ w ∈ (enhance L c).vars, Mutual v w ∧ (SameEnd (L := L) c v w ∨ SameEnd (L := L) c w v) := by
  have hga := (Good.all (L := L) hg).alike
  have key : ∀ x ∈ (enhance L c).vars, ∀ y ∈ (enhance L c).vars, NewPair L c x y → SameEnd (L := L) c x y := by
    rintro x hx y hy ⟨-, ⟨-, t, ht, h1, h2, hs, -⟩ | ⟨h, -⟩⟩
    · obtain ⟨x', m1, n1, s1⟩ := hga.back hx
      obtain ⟨y', m2, n2, s2⟩ := hga.back hy
      have := hu t ht x' m1 y' m2 (s1.trans (hs.trans s2.symm)) (n1 ▸ h1) (n2 ▸ h2)
      unfold SameEnd at this ⊢
      rwa [n1, n2] at this
    · rw [hw] at h; cases h
  rcases C98_new_vectors c hg v hv with h | ⟨-, w, hw, -, h⟩
  · exact .inl h
  · refine .inr ⟨w, hw, ?_⟩
    rcases h with h | h
    · exact ⟨h.1, .inl (key v hv w hw h)⟩
    · exact ⟨⟨h.1.2.1, h.1.1, Ne.symm h.1.2.2⟩, .inr (key w hw v hv h)⟩

/-! ### Examples -/

/-- A dataset for the examples: name, standard name. -/
def windCdm (conv : String) (vars : List (String × String)) : CDM Vec String Unit where
  attrs n := if n = globalNS then some [⟨"Conventions", conv⟩]
    else (vars.find? fun v => v.1 == n).map fun v => [⟨"standard_name", v.2⟩]
  vars := vars.map fun v => ⟨v.1, ["x", "y"], {}⟩
  dims := [⟨"x", 3, false⟩, ⟨"y", 2, false⟩]
  coordsInitialized := false
  coordSystems := ()

/-- The counterparts that are found. -/
def pairsOf (c : CDM Vec String Unit) : List (String × String × Dir) := c.vars.map fun v => (v.name, v.payload.counterpart, v.payload.direction)

/-- The components of the wind. -/
theorem C98_example : pairsOf (enhance toyLib (windCdm "CF-1.6" [("v", "y_wind"), ("T", "air_temperature"), ("u", "x_wind")])) =
    [("v", "u", .y), ("T", "", .none), ("u", "v", .x)] := by
  decide +kernel

/-- Names are compared by their beginnings: the eastward wind is connected with the northward wind shear, and the northward wind is left
over. -/
theorem C98_other_quantity :
    pairsOf (enhance toyLib (windCdm "CF-1.6" [("u", "eastward_wind"), ("dv", "northward_wind_shear"), ("v", "northward_wind")])) =
    [("u", "dv", .lon), ("dv", "u", .lat), ("v", "", .none)] := by
  decide +kernel

end Fimex.Vectors
