import Verif.Grib.Protobuf
import Verif.Cdm.Invariant
import Verif.Text.Props
import Verif.Scale.Lemmas
import Verif.Files.Paths
import Mathlib.Data.List.Nodup

/-! # C73: an index file restores the dataset description -/

namespace Fimex.Pb

open Fimex.Cdm Fimex.Text Fimex.Tables

variable {F D CS : Type}

/-! ## Specification -/

/-- The values of an integer array are values of its type. -/
def InRange : Data F D → Prop
  | .int t vs => ∀ v ∈ vs, Scale.lo t.bits t.signed ≤ v ∧ v ≤ Scale.hi t.bits t.signed
  | _ => True

/-- Data that an index file can hold: at least one number, or one text. -/
def Storable : Data F D → Prop
  | .int _ vs => vs ≠ []
  | .float vs => vs ≠ []
  | .double vs => vs ≠ []
  | .string _ => True
  | .strings _ => False
  | .native _ => False

/-- What is read instead of data that were written, `T` being the strings of the file: arrays without elements
become no data, a list of strings becomes the first strings of the file. -/
def back (T : List String) : Data F D → Option (Data F D)
  | .int t vs => if vs = [] then none else some (.int t vs)
  | .float vs => if vs = [] then none else some (.float vs)
  | .double vs => if vs = [] then none else some (.double vs)
  | .string s => some (.string s)
  | .strings ss => if ss = [] then none else some (.strings (T.take ss.length))
  | .native _ => none

/-- The same for type and data of a variable. -/
def Held.back (T : List String) : Held F D → Held F D
  | .empty t => .empty t
  | .data d => match Pb.back T d with
    | some d => .data d
    | none => .empty d.type

/-- A list of strings is not longer than the list of all strings of the file. -/
def Room (T : List String) : Data F D → Prop
  | .strings ss => ss.length ≤ T.length
  | _ => True

/-! ## Single values -/

theorem wrap_back (t : IntT) (z : Int) (h1 : Scale.lo t.bits t.signed ≤ z) (h2 : z ≤ Scale.hi t.bits t.signed) :
    Scale.wrap t.bits t.signed (Scale.wrap (if t.bits = 8 then 8 else if t.bits = 64 then 64 else 32) false z) = z := by
  cases t <;>
    simp only [IntT.bits, IntT.signed, Scale.wrap, Scale.lo, Scale.hi, Bool.false_eq_true, if_false, if_true,
      Nat.reduceEqDiff, Nat.reduceSub, Int.reducePow, sub_zero, add_zero] at h1 h2 ⊢ <;> omega

theorem ofCode_code (t : DataType) : ofCode (code t) = some t := by cases t <;> rfl

theorem str_at {T : List String} {i : Nat} {s : String} (h : T[i]? = some s) (hT : T.length ≤ 2 ^ 31) :
    str T (u32 i) = .ok s := by
  have hl := (List.getElem?_eq_some_iff.1 h).1
  have h1 : u32 i = i := Nat.mod_eq_of_lt (by omega)
  rw [h1, str, if_pos (by omega), readAt, h]

theorem prefix_at {l T : List String} (hp : l <+: T) {i : Nat} {s : String} (h : l[i]? = some s) : T[i]? = some s := by
  obtain ⟨t, rfl⟩ := hp
  rw [List.getElem?_append_left (List.getElem?_eq_some_iff.1 h).1]
  exact h

theorem add_prefix (l : StringList) (k : String) : l.strings <+: (l.add k).1.strings := by
  obtain ⟨⟨t, ht⟩, _⟩ := add_stable l k
  exact ⟨t, ht.symm⟩

theorem addAll_prefix (l : StringList) (ks : List String) : l.strings <+: (l.addAll ks).1.strings := by
  obtain ⟨⟨t, ht⟩, _⟩ := addAll_stable l ks
  exact ⟨t, ht.symm⟩

theorem str_add {l : StringList} (hl : l.Sound) (k : String) {T : List String} (hp : (l.add k).1.strings <+: T)
    (hT : T.length ≤ 2 ^ 31) : str T (u32 (l.add k).2) = .ok k :=
  str_at (prefix_at hp (add_at hl k).1) hT

theorem mapM_str (T : List String) (hT : T.length ≤ 2 ^ 31) (n : Nat) (hn : n ≤ T.length) :
    (List.range n).mapM (str T) = .ok (T.take n) := by
  have h := Scale.mapM_eq (str T) (fun i => T.getD i "") (List.range n) (by
    intro i hi
    rw [List.mem_range] at hi
    have : T[i]? = some T[i] := List.getElem?_eq_getElem (by omega)
    rw [str, if_pos (by omega), readAt, this]
    simp [List.getD, this])
  rw [h]
  congr 1
  apply List.ext_getElem
  · simp [hn]
  · intro i h1 h2
    simp only [List.length_map, List.length_range] at h1
    simp [List.getD, List.getElem?_eq_getElem (show i < T.length by omega)]

/-! ## One datum -/

theorem writeData_sound {l : StringList} (hl : l.Sound) (h : Held F D) : (writeData l h).2.Sound := by
  rcases h with t | d
  · exact hl
  · rcases d with ⟨t, vs⟩ | vs | vs | s | ss | n
    · cases t <;> exact hl
    · exact hl
    · exact hl
    · exact sound_add hl s
    · exact (addAll_spec l hl ss).1
    · exact hl

theorem writeData_prefix (l : StringList) (h : Held F D) : l.strings <+: (writeData l h).2.strings := by
  rcases h with t | d
  · exact List.prefix_rfl
  · rcases d with ⟨t, vs⟩ | vs | vs | s | ss | n
    · cases t <;> exact List.prefix_rfl
    · exact List.prefix_rfl
    · exact List.prefix_rfl
    · exact add_prefix l s
    · exact addAll_prefix l ss
    · exact List.prefix_rfl

/-- The datum, if any. -/
def Held.data? : Held F D → Option (Data F D)
  | .empty _ => none
  | .data d => some d

/-- The type. -/
def Held.type : Held F D → DataType
  | .empty t => t
  | .data d => d.type

theorem writeData_type (l : StringList) (h : Held F D) : (writeData l h).1.type = code h.type := by
  rcases h with t | d
  · rfl
  · rcases d with ⟨t, vs⟩ | vs | vs | s | ss | n
    · cases t <;> rfl
    · rfl
    · rfl
    · rfl
    · rfl
    · rfl

theorem ints_back (t : IntT) (b : Nat) (hb : b = if t.bits = 8 then 8 else if t.bits = 64 then 64 else 32)
    (vs : List Int) (h : InRange (.int t vs : Data F D)) :
    fromField (vs.map (Scale.wrap b false)) (ints t) = (if vs = [] then none else some (.int t vs) : Option (Data F D)) := by
  unfold fromField
  by_cases e : vs = []
  · simp [e]
  · rw [if_neg (by simpa using e), if_neg e]
    unfold ints
    rw [List.map_map]
    congr 2
    conv_rhs => rw [← List.map_id vs]
    apply List.map_congr_left
    intro v hv
    subst hb
    exact wrap_back t v (h v hv).1 (h v hv).2

theorem readData_writeData {l : StringList} (hl : l.Sound) (h : Held F D) (T : List String)
    (hp : (writeData l h).2.strings <+: T) (hT : T.length ≤ 2 ^ 31)
    (hr : ∀ d, h.data? = some d → InRange d ∧ Room T d) :
    readData T (writeData l h).1 = .ok (h.data?.bind (back T)) := by
  rcases h with t | d
  · unfold readData
    simp only [writeData, ofCode_code]
    cases t <;> rfl
  · have hr := hr d rfl
    unfold readData
    rw [writeData_type, ofCode_code]
    rcases d with ⟨t, vs⟩ | vs | vs | s | ss | n
    · cases t <;> simp only [writeData, Held.type, Data.type, IntT.type, Held.data?, Option.bind_some, back] <;>
        first
        | rw [ints_back _ 8 rfl vs hr.1]
        | rw [ints_back _ 32 rfl vs hr.1]
        | rw [ints_back _ 64 rfl vs hr.1]
    · show Res.ok (fromField vs Data.float) = _
      unfold fromField
      rfl
    · show Res.ok (fromField vs Data.double) = _
      unfold fromField
      rfl
    · simp only [writeData, Held.type, Data.type, Held.data?, Option.bind_some, back]
      rw [str_add hl s hp hT]; rfl
    · simp only [Held.type, Data.type, Held.data?, Option.bind_some, back]
      have hlen := (addAll_spec l hl ss).2.1
      have hfs : (writeData (F := F) (D := D) l (.data (.strings ss))).1.strings = (l.addAll ss).2.map u32 := rfl
      by_cases e : ss = []
      · subst e; rfl
      · rw [hfs, if_neg, if_neg e, List.length_map, hlen, mapM_str T hT _ hr.2]
        · rfl
        · intro h0
          have := congrArg List.length h0
          rw [List.length_map, hlen] at this
          exact e (List.length_eq_zero_iff.1 this)
    · rfl

theorem heldOf_back (T : List String) (h : Held F D) : heldOf (code h.type) (h.data?.bind (back T)) = h.back T := by
  rcases h with t | d
  · simp [heldOf, Held.data?, Held.type, ofCode_code, Held.back]
  · simp only [Held.data?, Option.bind_some, Held.type, Held.back]
    cases e : back T d with
    | none => simp [heldOf, ofCode_code]
    | some d' => simp [heldOf]

/-! ## Lists of messages -/

/-- Writing `a` gives a message that later, with the completed list of strings, is read as `R` says. -/
def Good {α β : Type} (w : StringList → α → Res (β × StringList)) (R : List String → β → α → Prop) (a : α) : Prop :=
  ∀ l : StringList, l.Sound → ∃ b l', w l a = .ok (b, l') ∧ l'.Sound ∧ l.strings <+: l'.strings ∧
    ∀ T, l'.strings <+: T → T.length ≤ 2 ^ 31 → R T b a

theorem writeAll_good {α β : Type} {w : StringList → α → Res (β × StringList)} {R : List String → β → α → Prop} :
    ∀ (as : List α), (∀ a ∈ as, Good w R a) → ∀ l : StringList, l.Sound →
      ∃ bs l', writeAll w l as = .ok (bs, l') ∧ l'.Sound ∧ l.strings <+: l'.strings ∧
        ∀ T, l'.strings <+: T → T.length ≤ 2 ^ 31 → List.Forall₂ (R T) bs as
  | [], _, l, hl => ⟨[], l, rfl, hl, List.prefix_rfl, fun _ _ _ => .nil⟩
  | a :: as, h, l, hl => by
    obtain ⟨b, l1, e1, s1, p1, r1⟩ := h a (by simp) l hl
    obtain ⟨bs, l2, e2, s2, p2, r2⟩ := writeAll_good as (fun x hx => h x (by simp [hx])) l1 s1
    refine ⟨b :: bs, l2, ?_, s2, p1.trans p2, fun T hp hT => .cons (r1 T (p2.trans hp) hT) (r2 T hp hT)⟩
    simp only [writeAll, e1, Res.ok_bind, e2]

/-- An attribute as it is read. -/
def attrBack (T : List String) (a : Attr (Option (Data F D))) : Attr (Option (Data F D)) :=
  ⟨a.name, a.value.bind (back T)⟩

theorem good_attr (a : Attr (Option (Data F D))) (hd : a.value ≠ none) :
    Good writeAttribute (fun T f a => (∀ d, a.value = some d → InRange d ∧ Room T d) →
      readAttribute T f = .ok (attrBack T a)) a := by
  intro l hl
  obtain ⟨d, hd⟩ := Option.ne_none_iff_exists'.1 hd
  refine ⟨⟨u32 (l.add a.name).2, (writeData (l.add a.name).1 (.data d)).1⟩, _, ?_,
    writeData_sound (sound_add hl a.name) (.data d), (add_prefix l a.name).trans (writeData_prefix _ _), ?_⟩
  · simp only [writeAttribute, hd]
  · intro T hp hT hr
    simp only [readAttribute]
    rw [readData_writeData (sound_add hl a.name) (.data d) T hp hT (by
        intro d' e; cases e; exact hr d hd), Res.ok_bind,
      str_add hl a.name ((writeData_prefix _ _).trans hp) hT, Res.ok_bind]
    simp [attrBack, hd, Held.data?]

theorem good_dim (d : Dim) : Good writeDim (fun T f d => str T f.name = .ok d.name ∧ f.length = d.length % 2 ^ 32 ∧
    f.unlimited = d.unlimited) d := by
  intro l hl
  exact ⟨_, _, rfl, sound_add hl d.name, add_prefix l d.name,
    fun T hp hT => ⟨str_add hl d.name hp hT, rfl, rfl⟩⟩

theorem good_name (s : String) : Good writeName (fun T f s => str T f = .ok s) s := by
  intro l hl
  exact ⟨_, _, rfl, sound_add hl s, add_prefix l s, fun T hp hT => str_add hl s hp hT⟩

theorem forall2_mapM {α β : Type} (f : β → Res α) : ∀ {bs : List β} {as : List α},
    List.Forall₂ (fun b a => f b = .ok a) bs as → bs.mapM f = .ok as
  | _, _, .nil => rfl
  | _, _, .cons h t => by rw [List.mapM_cons, h, Res.ok_bind, forall2_mapM f t]; rfl

/-- Everything of a variable that is read before it is added. -/
structure VarRead (c : Dataset F D CS) (T : List String) (f : FVar F D) (v : Var (Payload F D)) : Prop where
  name : str T f.name = .ok v.name
  shape : f.shape.mapM (str T) = .ok v.shape
  data : (∀ d, v.payload.held.data? = some d → InRange d ∧ Room T d) →
    readData T f.data = .ok (v.payload.held.data?.bind (back T))
  type : f.data.type = code v.payload.held.type
  attrs : List.Forall₂ (fun f a => (∀ d, a.value = some d → InRange d ∧ Room T d) →
      readAttribute T f = .ok (attrBack T a)) f.attributes (getAttributes c v.name)

theorem good_var (c : Dataset F D CS) (v : Var (Payload F D)) (hn : ∀ a ∈ getAttributes c v.name, a.value ≠ none) :
    Good (writeVar c) (VarRead c) v := by
  intro l hl
  obtain ⟨as, l1, e1, s1, p1, r1⟩ := writeAll_good (w := writeAttribute)
    (getAttributes c v.name) (fun a ha => good_attr a (hn a ha)) (l.add v.name).1 (sound_add hl v.name)
  have s2 := writeData_sound s1 v.payload.held
  have p2 := writeData_prefix l1 v.payload.held
  obtain ⟨ns, l3, e3, s3, p3, r3⟩ := writeAll_good (w := writeName) v.shape (fun s _ => good_name s) _ s2
  refine ⟨⟨u32 (l.add v.name).2, (writeData l1 v.payload.held).1, ns, as⟩, l3, ?_, s3,
    (((add_prefix l v.name).trans p1).trans p2).trans p3, ?_⟩
  · simp only [writeVar, e1, Res.ok_bind, e3]
  · intro T hp hT
    refine ⟨str_add hl v.name (((p1.trans p2).trans p3).trans hp) hT, forall2_mapM _ (r3 T hp hT), ?_, ?_, ?_⟩
    · exact readData_writeData s1 v.payload.held T (p3.trans hp) hT
    · exact writeData_type _ _
    · exact r1 T ((p2.trans p3).trans hp) hT

/-! ## Reading the lists -/

theorem readAttributes_eq (T : List String) (n : String) : ∀ {fs : List (FAttr F D)} {as : List (Attr (Option (Data F D)))}
    (_ : List.Forall₂ (fun f a => readAttribute T f = .ok a) fs as) (c : Dataset F D CS),
    readAttributes T n c fs = addAttributes c n as
  | _, _, .nil, _ => rfl
  | _, _, .cons (l₁ := fs) (l₂ := as) (a := f) (b := a) h t, c => by
    have ih := readAttributes_eq T n t
    simp only [readAttributes, each, h, andThen, addAttributes] at ih ⊢
    rcases e : addAttribute c n a with ⟨c1, r⟩
    cases r with
    | ok u => exact ih c1
    | throws => rfl
    | ub => rfl

theorem readDims_ok (T : List String) : ∀ {fs : List FDim} {ds : List Dim}
    (_ : List.Forall₂ (fun f d => str T f.name = .ok d.name ∧ f.length = d.length % 2 ^ 32 ∧ f.unlimited = d.unlimited) fs ds)
    (c : Dataset F D CS), ((c.dims ++ ds).map (·.name)).Nodup →
    ∃ c', each (readDim T) c fs = (c', .ok ()) ∧ c'.dims = c.dims ++ ds.map (fun d => { d with length := d.length % 2 ^ 32 }) ∧
      c'.vars = c.vars ∧ c'.attrs = c.attrs
  | _, _, .nil, c, _ => ⟨c, rfl, by simp, rfl, rfl⟩
  | _, _, .cons (l₁ := fs) (l₂ := ds) (a := f) (b := d) h t, c, hn => by
    have hnot : hasDimension { c with coordsInitialized := false } d.name = false := by
      have : d.name ∉ c.dims.map (·.name) := by
        intro hm
        rw [List.map_append, List.nodup_append] at hn
        exact hn.2.2 d.name hm d.name (by simp) rfl
      have h2 := (hasDimension_iff c d.name)
      cases e : hasDimension c d.name with
      | false => exact e
      | true => exact absurd (h2.1 e) this
    obtain ⟨c', e, hd, hv, ha⟩ := readDims_ok T t
      { c with coordsInitialized := false, dims := c.dims ++ [⟨d.name, d.length % 2 ^ 32, d.unlimited⟩] } (by
        simpa [List.append_assoc] using hn)
    refine ⟨c', ?_, ?_, hv, ha⟩
    · have : readDim T c f = ({ c with coordsInitialized := false, dims := c.dims ++ [⟨d.name, d.length % 2 ^ 32, d.unlimited⟩] }, .ok ()) := by
        simp only [readDim, h.1, andThen, addDimension, h.2.1, h.2.2, hnot]
        rfl
      simp only [each, this]
      exact e
    · rw [hd]; simp

theorem discharge {α β : Type} {P : α → Prop} {R : β → α → Prop} {fs : List β} {as : List α}
    (hf : List.Forall₂ (fun f a => P a → R f a) fs as) (h : ∀ a ∈ as, P a) : List.Forall₂ R fs as := by
  induction hf with
  | nil => exact .nil
  | cons h0 _ ih => exact .cons (h0 (h _ (by simp))) (ih fun a hm => h a (by simp [hm]))

theorem readVars_ok (o : Dataset F D CS) (T : List String) (nd : ∀ n, ((getAttributes o n).map (·.name)).Nodup)
    (ok : ∀ n, ∀ a ∈ getAttributes o n, ∀ d, a.value = some d → InRange d ∧ Room T d) :
    ∀ {fs : List (FVar F D)} {vs : List (Var (Payload F D))} (_ : List.Forall₂ (VarRead o T) fs vs)
      (_ : ∀ v ∈ vs, ∀ d, v.payload.held.data? = some d → InRange d ∧ Room T d)
      (c : Dataset F D CS), ((c.vars ++ vs).map (·.name)).Nodup → (∀ v ∈ vs, getAttributes c v.name = []) →
    ∃ c', each (readVar T) c fs = (c', .ok ()) ∧ c'.dims = c.dims ∧
      c'.vars = c.vars ++ vs.map (fun v => { v with payload := ⟨v.payload.held.back T, none⟩ }) ∧
      ∀ n, getAttributes c' n = if n ∈ vs.map (·.name) then (getAttributes o n).map (attrBack T) else getAttributes c n
  | _, _, .nil, _, c, _, _ => ⟨c, rfl, rfl, by simp, by simp⟩
  | _, _, .cons (l₁ := fs) (l₂ := vs) (a := f) (b := v) h t, hok, c, hn, he => by
    have hnot : hasVariable { c with coordsInitialized := false } v.name = false := by
      have : v.name ∉ c.vars.map (·.name) := by
        intro hm
        rw [List.map_append, List.nodup_append] at hn
        exact hn.2.2 v.name hm v.name (by simp) rfl
      cases e : hasVariable c v.name with
      | false => exact e
      | true => exact absurd ((hasVariable_iff c v.name).1 e) this
    let v' : Var (Payload F D) := { v with payload := ⟨v.payload.held.back T, none⟩ }
    let c1 : Dataset F D CS := { c with coordsInitialized := false, vars := c.vars ++ [v'] }
    have h1 : addVariable c v' = (c1, .ok ()) := by
      simp only [addVariable, v', hnot]
      rfl
    have hgc : ∀ n, getAttributes c1 n = getAttributes c n := fun _ => rfl
    have hatt : List.Forall₂ (fun f a => readAttribute T f = .ok a) f.attributes ((getAttributes o v.name).map (attrBack T)) := by
      rw [List.forall₂_map_right_iff]
      exact discharge h.attrs (ok v.name)
    obtain ⟨c2, e2, v2, d2, _, a2, o2, _⟩ := addAttributes_ok v.name ((getAttributes o v.name).map (attrBack T)) c1
      (.inr (by simp [hasVariable, c1, v']))
      (by rw [hgc, he v (by simp), List.nil_append, List.map_map]
          exact nd v.name)
    have hstep : readVar T c f = (c2, .ok ()) := by
      simp only [readVar, h.shape, andThen, h.name, h.data (hok v (by simp))]
      rw [h.type, heldOf_back]
      have h1' : addVariable c ⟨v.name, v.shape, ⟨v.payload.held.back T, none⟩⟩ = (c1, .ok ()) := h1
      rw [h1']
      exact (readAttributes_eq T v.name hatt c1).trans e2
    have hg2 : ∀ m, m ≠ v.name → getAttributes c2 m = getAttributes c m := by
      intro m hm
      unfold getAttributes
      rw [o2 m hm]
    have hnd := hn
    rw [List.map_append, List.map_cons, List.nodup_append, List.nodup_cons] at hnd
    obtain ⟨c', e, hd, hv, hg⟩ := readVars_ok o T nd ok t (fun w hw => hok w (by simp [hw])) c2 (by
        rw [v2]; simpa [c1, v', List.append_assoc] using hn) (by
        intro w hw
        rw [hg2 w.name, he w (by simp [hw])]
        intro e
        exact hnd.2.1.1 (e ▸ List.mem_map_of_mem hw))
    refine ⟨c', ?_, by rw [hd, d2], ?_, ?_⟩
    · simp only [each, hstep]; exact e
    · rw [hv, v2]; simp [c1, v']
    · intro n
      rw [hg n]
      by_cases hm : n ∈ vs.map (·.name)
      · rw [if_pos hm, if_pos (by simp [hm])]
      · rw [if_neg hm]
        by_cases hv : n = v.name
        · subst hv
          rw [if_pos (by simp), a2, hgc, he v (by simp), List.nil_append]
        · rw [if_neg (by simpa [hv] using hm), hg2 n hv]

/-! ## Theorems -/

/-- Null pointers and numbers outside of their type do not occur. -/
structure Proper (c : Dataset F D CS) : Prop where
  attrs : ∀ n, ∀ a ∈ getAttributes c n, ∃ d, a.value = some d ∧ InRange d
  vars : ∀ v ∈ c.vars, ∀ d, v.payload.held = .data d → InRange d

/-- Lists of strings are not longer than the list of all strings in the file. -/
structure HasRoom (T : List String) (c : Dataset F D CS) : Prop where
  attrs : ∀ n, ∀ a ∈ getAttributes c n, ∀ d, a.value = some d → Room T d
  vars : ∀ v ∈ c.vars, ∀ d, v.payload.held = .data d → Room T d

/-- C73, what exactly is read back: every dataset description with unique names and proper data can be
written, and reading it into an empty description gives the same dimensions in the same order with lengths
modulo `2^32`, the same variables with the same names, shapes and types in the same order but without vector
direction, and for every name the same attributes in the same order, with the data given by `back`. -/
theorem C73_index_read_back (c : Dataset F D CS) (cs : CS) (hi : Inv c) (hg : ∀ v ∈ c.vars, v.name ≠ "_GLOBAL")
    (hp : Proper c) : ∃ m, writeCDM c = .ok m ∧ (m.strings.length ≤ 2 ^ 31 → HasRoom m.strings c →
      ∃ c', readCDM (emptyCDM cs) m = (c', .ok ()) ∧
        c'.dims = c.dims.map (fun d => { d with length := d.length % 2 ^ 32 }) ∧
        c'.vars = c.vars.map (fun v => { v with payload := ⟨v.payload.held.back m.strings, none⟩ }) ∧
        ∀ n, getAttributes c' n = (getAttributes c n).map fun a => ⟨a.name, a.value.bind (back m.strings)⟩) := by
  have hne : ∀ n, ∀ a ∈ getAttributes c n, a.value ≠ none := fun n a ha => by
    obtain ⟨d, e, _⟩ := hp.attrs n a ha
    rw [e]; simp
  have s0 : (StringList.empty false).Sound := created_sound (.empty false)
  obtain ⟨gs, l1, e1, s1, p1, r1⟩ := writeAll_good (w := writeAttribute) (getAttributes c globalNS)
    (fun a ha => good_attr a (hne _ a ha)) (StringList.empty false) s0
  obtain ⟨ds, l2, e2, s2, p2, r2⟩ := writeAll_good (w := writeDim) c.dims (fun d _ => good_dim d) l1 s1
  obtain ⟨vs, l3, e3, s3, p3, r3⟩ := writeAll_good (w := writeVar c) c.vars (fun v _ => good_var c v (hne _)) l2 s2
  refine ⟨⟨l3.strings, ds, vs, gs⟩, ?_, ?_⟩
  · simp only [writeCDM, e1, Res.ok_bind, e2, e3]
  · intro hT hroom
    dsimp only at hT hroom ⊢
    have hok : ∀ n, ∀ a ∈ getAttributes c n, ∀ d, a.value = some d → InRange d ∧ Room l3.strings d := by
      intro n a ha d e
      obtain ⟨d', e', h'⟩ := hp.attrs n a ha
      rw [e] at e'; cases e'
      exact ⟨h', hroom.attrs n a ha d e⟩
    have hokv : ∀ v ∈ c.vars, ∀ d, v.payload.held.data? = some d → InRange d ∧ Room l3.strings d := by
      intro v hv d e
      cases hh : v.payload.held with
      | empty t => rw [hh] at e; simp [Held.data?] at e
      | data d' =>
        rw [hh] at e; simp only [Held.data?, Option.some.injEq] at e
        subst e
        exact ⟨hp.vars v hv _ hh, hroom.vars v hv _ hh⟩
    have hgl : List.Forall₂ (fun f a => readAttribute l3.strings f = .ok a) gs
        ((getAttributes c globalNS).map (attrBack l3.strings)) := by
      rw [List.forall₂_map_right_iff]
      exact discharge (r1 l3.strings (p2.trans p3) hT) (hok globalNS)
    have hnd := fun n => nodup_getAttributes c hi n
    obtain ⟨c1, f1, v1, d1, _, a1, o1, _⟩ := addAttributes_ok globalNS ((getAttributes c globalNS).map (attrBack l3.strings))
      (emptyCDM cs : Dataset F D CS) (.inl rfl) (by
        show (([] ++ _).map _).Nodup
        rw [List.nil_append, List.map_map]; exact hnd globalNS)
    obtain ⟨c2, f2, d2, v2, a2⟩ := readDims_ok l3.strings (r2 l3.strings p3 hT) c1 (by
      rw [d1]; simpa [emptyCDM] using hi.dims)
    have hg2 : ∀ n, getAttributes c2 n = getAttributes c1 n := fun n => by unfold getAttributes; rw [a2]
    have hg1 : ∀ n, n ≠ globalNS → getAttributes c1 n = [] := fun n hn => by
      unfold getAttributes; rw [o1 n hn]; rfl
    obtain ⟨c3, f3, d3, v3, a3⟩ := readVars_ok c l3.strings hnd hok (r3 l3.strings List.prefix_rfl hT) hokv c2
      (by rw [v2, v1]; simpa [emptyCDM] using hi.vars)
      (fun v hv => by rw [hg2, hg1 _ (hg v hv)])
    refine ⟨c3, ?_, ?_, ?_, ?_⟩
    · simp only [readCDM]
      rw [readAttributes_eq l3.strings globalNS hgl, f1]
      simp only [f2]
      exact f3
    · rw [d3, d2, d1]; simp [emptyCDM]
    · rw [v3, v2, v1]; simp [emptyCDM]
    · intro n
      rw [a3 n]
      by_cases hm : n ∈ c.vars.map (·.name)
      · rw [if_pos hm]; rfl
      · rw [if_neg hm, hg2]
        by_cases hn : n = globalNS
        · rw [hn, a1]; rfl
        · rw [hg1 n hn]
          have : c.attrs n = none := by
            by_contra h0
            rcases hi.owners n h0 with h1 | h1
            · exact hn h1
            · exact hm ((hasVariable_iff c n).1 h1)
          simp [getAttributes, this]

theorem back_storable (T : List String) (d : Data F D) (h : Storable d) : back T d = some d := by
  rcases d with ⟨t, vs⟩ | vs | vs | s | ss | n <;> simp_all [Storable, back]

/-- C73: an index file restores the dataset description it was written from: dimensions, variables with their
types, shapes and data, and all attributes are the same. Missing: lists of strings and arrays without elements
(see `C73_string_list_not_restored`, `C73_empty_array_not_restored`), dimensions of `2^32` or more, and vector
directions. -/
theorem C73_index_restores_dataset_partial (c : Dataset F D CS) (cs : CS) (hi : Inv c)
    (hg : ∀ v ∈ c.vars, v.name ≠ "_GLOBAL") (hp : Proper c)
    (hsa : ∀ n, ∀ a ∈ getAttributes c n, ∀ d, a.value = some d → Storable d)
    (hsv : ∀ v ∈ c.vars, (∀ d, v.payload.held = .data d → Storable d) ∧ v.payload.vector = none)
    (hd : ∀ d ∈ c.dims, d.length < 2 ^ 32) :
    ∃ m, writeCDM c = .ok m ∧ (m.strings.length ≤ 2 ^ 31 → ∃ c', readCDM (emptyCDM cs) m = (c', .ok ()) ∧
      c'.dims = c.dims ∧ c'.vars = c.vars ∧ ∀ n, getAttributes c' n = getAttributes c n) := by
  obtain ⟨m, hm, h⟩ := C73_index_read_back c cs hi hg hp
  refine ⟨m, hm, fun hT => ?_⟩
  have room : ∀ d : Data F D, Storable d → Room m.strings d := by
    intro d hd
    rcases d with ⟨t, vs⟩ | vs | vs | s | ss | n <;> simp_all [Storable, Room]
  obtain ⟨c', e, h1, h2, h3⟩ := h hT ⟨fun n a ha d e => room d (hsa n a ha d e), fun v hv d e => room d ((hsv v hv).1 d e)⟩
  refine ⟨c', e, ?_, ?_, ?_⟩
  · rw [h1]
    conv_rhs => rw [← List.map_id c.dims]
    exact List.map_congr_left fun d hm => by rw [Nat.mod_eq_of_lt (hd d hm)]; rfl
  · rw [h2]
    conv_rhs => rw [← List.map_id c.vars]
    refine List.map_congr_left fun v hm => ?_
    rcases v with ⟨n, s, h, vec⟩
    have hv := hsv _ hm
    dsimp only at hv
    rw [hv.2]
    have : h.back m.strings = h := by
      cases h with
      | empty t => rfl
      | data d => simp only [Held.back, back_storable _ _ (hv.1 d rfl)]
    simp only [this]; rfl
  · intro n
    rw [h3 n]
    conv_rhs => rw [← List.map_id (getAttributes c n)]
    refine List.map_congr_left fun a hm => ?_
    obtain ⟨d, e, _⟩ := hp.attrs n a hm
    rcases a with ⟨an, av⟩
    dsimp only at e ⊢
    rw [e, Option.bind_some, back_storable _ _ (hsa n _ hm d e)]; rfl

/-- A small description: one dimension, one coordinate variable with data, two kinds of attributes. -/
def small : Dataset Nat Nat Unit where
  attrs := fun n => if n = globalNS then some [⟨"title", some (.string "x")⟩]
    else if n = "x" then some [⟨"units", some (.string "m")⟩, ⟨"add_offset", some (.int .short [-3])⟩] else none
  dims := [⟨"x", 2, false⟩]
  vars := [⟨"x", ["x"], ⟨.data (.int .char [-1, 5]), none⟩⟩]
  coordsInitialized := false
  coordSystems := ()

example : writeCDM small = .ok ⟨["title", "x", "units", "m", "add_offset"], [⟨1, 2, false⟩],
    [⟨1, { type := 1, u8 := [255, 5] }, [1], [⟨2, { type := 6, strings := [3] }⟩,
      ⟨4, { type := 2, u32 := [4294967293] }⟩]⟩], [⟨0, { type := 6, strings := [1] }⟩]⟩ := by decide +kernel

example : Inv small := by
  refine ⟨by decide, by decide, ?_, ?_⟩
  · intro n l h
    simp only [small] at h
    split_ifs at h <;> cases h <;> decide
  · intro n h
    simp only [small] at h
    by_cases h1 : n = globalNS
    · exact .inl h1
    · by_cases h2 : n = "x"
      · subst h2; exact .inr rfl
      · simp [h1, h2] at h

/-! ### What is not restored -/

/-- C73 is wrong for lists of strings: the attribute `["b", "a"]` named `"n"` comes back as `["n", "b"]`. -/
theorem C73_string_list_not_restored : ∃ (c : Dataset Nat Nat Unit) (m : FCdm Nat Nat), Inv c ∧
    getAttributes c globalNS = [⟨"n", some (.strings ["b", "a"])⟩] ∧ writeCDM c = .ok m ∧
    ∃ c', readCDM (emptyCDM ()) m = (c', .ok ()) ∧ getAttributes c' globalNS = [⟨"n", some (.strings ["n", "b"])⟩] := by
  refine ⟨⟨fun n => if n = globalNS then some [⟨"n", some (.strings ["b", "a"])⟩] else none, [], [], false, ()⟩,
    ⟨["n", "b", "a"], [], [], [⟨0, { type := 12, strings := [1, 2] }⟩]⟩, ⟨by decide, by decide, ?_, ?_⟩, by decide,
    by decide +kernel, _, rfl, by decide +kernel⟩
  · intro n l h
    dsimp only at h
    split_ifs at h
    cases h; decide
  · intro n h
    dsimp only at h
    split_ifs at h with h1
    · exact .inl h1
    · exact absurd rfl h

/-- A list with repeated strings can be longer than the list of all strings of the file; reading it accesses
strings that do not exist. -/
theorem C73_string_list_read_out_of_bounds : ∃ (c : Dataset Nat Nat Unit) (m : FCdm Nat Nat),
    getAttributes c globalNS = [⟨"n", some (.strings ["a", "a", "a"])⟩] ∧ writeCDM c = .ok m ∧
    (readCDM (emptyCDM ()) m).2 = .ub :=
  ⟨⟨fun n => if n = globalNS then some [⟨"n", some (.strings ["a", "a", "a"])⟩] else none, [], [], false, ()⟩,
    ⟨["n", "a"], [], [], [⟨0, { type := 12, strings := [1, 1, 1] }⟩]⟩, by decide, by decide +kernel, by decide +kernel⟩

/-- An attribute with an array without elements comes back without data, and such an attribute cannot be
written again: `getDataType` follows a null pointer. -/
theorem C73_empty_array_not_restored : ∃ (c : Dataset Nat Nat Unit) (m : FCdm Nat Nat) (c' : Dataset Nat Nat Unit),
    getAttributes c globalNS = [⟨"n", some (.float [])⟩] ∧ writeCDM c = .ok m ∧
    readCDM (emptyCDM ()) m = (c', .ok ()) ∧ getAttributes c' globalNS = [⟨"n", none⟩] ∧ writeCDM c' = .ub :=
  ⟨⟨fun n => if n = globalNS then some [⟨"n", some (.float [])⟩] else none, [], [], false, ()⟩,
    ⟨["n"], [], [], [⟨0, { type := 4 }⟩]⟩, _, by decide, by decide +kernel, rfl, by decide +kernel, by decide +kernel⟩

/-- Long dimensions come back shortened. -/
theorem C73_long_dimension_not_restored : ∃ (c c' : Dataset Nat Nat Unit) (m : FCdm Nat Nat),
    c.dims = [⟨"x", 2 ^ 32 + 3, false⟩] ∧ writeCDM c = .ok m ∧ readCDM (emptyCDM ()) m = (c', .ok ()) ∧
    c'.dims = [⟨"x", 3, false⟩] :=
  ⟨⟨fun _ => none, [], [⟨"x", 2 ^ 32 + 3, false⟩], false, ()⟩, _, ⟨["x"], [⟨0, 3, false⟩], [], []⟩, rfl, by decide +kernel,
    rfl, by decide +kernel⟩

/-- A variable may be called like the place of the global attributes; its file cannot be read if it has any. -/
theorem C73_variable_named_global_unreadable : ∃ (c : Dataset Nat Nat Unit) (m : FCdm Nat Nat),
    c.vars = [⟨"_GLOBAL", [], ⟨.empty .float, none⟩⟩] ∧ writeCDM c = .ok m ∧ (readCDM (emptyCDM ()) m).2 = .throws :=
  ⟨⟨fun n => if n = globalNS then some [⟨"n", some (.string "t")⟩] else none, [⟨"_GLOBAL", [], ⟨.empty .float, none⟩⟩], [],
      false, ()⟩,
    ⟨["n", "t", "_GLOBAL"], [], [⟨2, { type := 4 }, [], [⟨0, { type := 6, strings := [1] }⟩]⟩],
      [⟨0, { type := 6, strings := [1] }⟩]⟩, rfl, by decide +kernel, by decide +kernel⟩

/-! ### Reading arbitrary files -/

/-- All indices of a datum are below the number of strings. -/
def FData.closed (n : Nat) (f : FData F D) : Prop := f.strings.length ≤ n ∧ ∀ i ∈ f.strings, i < n
/-- All indices of an attribute are below the number of strings. -/
def FAttr.closed (n : Nat) (f : FAttr F D) : Prop := f.name < n ∧ f.data.closed n
/-- All indices of a file are below the number of strings. -/
structure FCdm.Closed (m : FCdm F D) : Prop where
  size : m.strings.length ≤ 2 ^ 31
  globals : ∀ a ∈ m.globals, a.closed m.strings.length
  dims : ∀ d ∈ m.dims, d.name < m.strings.length
  vars : ∀ v ∈ m.vars, v.name < m.strings.length ∧ v.data.closed m.strings.length ∧
    (∀ i ∈ v.shape, i < m.strings.length) ∧ ∀ a ∈ v.attributes, a.closed m.strings.length

theorem str_lt {T : List String} (hT : T.length ≤ 2 ^ 31) {i : Nat} (h : i < T.length) : str T i = .ok T[i] := by
  rw [str, if_pos (by omega), readAt, List.getElem?_eq_getElem h]

theorem readData_not_ub {T : List String} (hT : T.length ≤ 2 ^ 31) (f : FData F D) (h : f.closed T.length) :
    readData T f ≠ .ub := by
  unfold readData
  cases e : ofCode f.type with
  | none => simp
  | some t =>
    cases t <;> simp only [ne_eq, reduceCtorEq, not_false_eq_true]
    · cases e2 : f.strings with
      | nil => simp
      | cons i l => simp only [str_lt hT (h.2 i (by simp [e2])), Res.ok_bind]; simp
    · split_ifs
      · simp
      · rw [mapM_str T hT _ h.1]; simp [Res.ok_bind]

theorem readAttribute_not_ub {T : List String} (hT : T.length ≤ 2 ^ 31) (f : FAttr F D) (h : f.closed T.length) :
    readAttribute T f ≠ .ub := by
  unfold readAttribute
  have h1 := readData_not_ub hT f.data h.2
  cases e : readData T f.data with
  | ub => exact absurd e h1
  | throws => rw [Res.throws_bind]; simp
  | ok d => rw [Res.ok_bind, str_lt hT h.1, Res.ok_bind]; simp

/-- What one step of reading keeps. -/
def Safe (r : Dataset F D CS × Res Unit) : Prop := r.2 ≠ .ub ∧ Inv r.1

theorem each_safe {α : Type} (step : Dataset F D CS → α → Dataset F D CS × Res Unit) :
    ∀ (as : List α) (_ : ∀ a ∈ as, ∀ c : Dataset F D CS, Inv c → Safe (step c a)) (c : Dataset F D CS), Inv c → Safe (each step c as)
  | [], _, c, hc => ⟨by simp [each], hc⟩
  | a :: as, h, c, hc => by
    have h1 := h a (by simp) c hc
    unfold each
    rcases e : step c a with ⟨c1, r⟩
    rw [e] at h1
    cases r with
    | ok u => exact each_safe step as (fun x hx => h x (by simp [hx])) c1 h1.2
    | throws => exact h1
    | ub => exact absurd rfl h1.1

theorem andThen_safe {α : Type} (c : Dataset F D CS) (hc : Inv c) (r : Res α) (hr : r ≠ .ub)
    (k : α → Dataset F D CS × Res Unit) (hk : ∀ a, r = .ok a → Safe (k a)) : Safe (andThen c r k) := by
  cases r with
  | ok a => exact hk a rfl
  | throws => exact ⟨by simp [andThen], hc⟩
  | ub => exact absurd rfl hr

theorem safe_addAttribute (c : Dataset F D CS) (hc : Inv c) (n : String) (a : Attr (Option (Data F D))) :
    Safe (addAttribute c n a) := by
  refine ⟨?_, inv_step (fun _ => c.coordSystems) c hc (.addAttr n a)⟩
  rcases addAttribute_cases c n a with ⟨_, h⟩ | ⟨_, _, h⟩ | ⟨_, _, h⟩ <;> rw [h] <;> simp

theorem safe_addVariable (c : Dataset F D CS) (hc : Inv c) (v : Var (Payload F D)) : Safe (addVariable c v) := by
  refine ⟨?_, inv_step (fun _ => c.coordSystems) c hc (.addVar v)⟩
  unfold addVariable
  dsimp only
  split_ifs <;> simp

theorem safe_addDimension (c : Dataset F D CS) (hc : Inv c) (d : Dim) : Safe (addDimension c d) := by
  refine ⟨?_, inv_step (fun _ => c.coordSystems) c hc (.addDim d)⟩
  unfold addDimension
  dsimp only
  split_ifs <;> simp

theorem safe_readAttributes {T : List String} (hT : T.length ≤ 2 ^ 31) (n : String) (c : Dataset F D CS) (hc : Inv c)
    (fs : List (FAttr F D)) (h : ∀ f ∈ fs, f.closed T.length) : Safe (readAttributes T n c fs) :=
  each_safe _ fs (fun f hf c hc => andThen_safe c hc _ (readAttribute_not_ub hT f (h f hf)) _
    fun a _ => safe_addAttribute c hc n a) c hc

theorem mapM_str_ok {T : List String} (hT : T.length ≤ 2 ^ 31) (l : List Nat) (h : ∀ i ∈ l, i < T.length) :
    l.mapM (str T) ≠ .ub := by
  rw [Scale.mapM_eq (str T) (fun i => T.getD i "") l]
  · simp
  · intro i hi
    rw [str_lt hT (h i hi)]
    simp [List.getD, List.getElem?_eq_getElem (h i hi)]

/-- C73: reading a file whose indices are all below the number of its strings, into any description with unique
names, never accesses a string that does not exist, and the names are still unique afterwards, whether the
file was read completely or refused. -/
theorem C73_closed_files_are_read_safely (m : FCdm F D) (hm : m.Closed) (c : Dataset F D CS) (hc : Inv c) :
    (readCDM c m).2 ≠ .ub ∧ Inv (readCDM c m).1 := by
  have h1 := safe_readAttributes hm.size globalNS c hc m.globals hm.globals
  unfold readCDM
  rcases e : readAttributes m.strings globalNS c m.globals with ⟨c1, r⟩
  rw [e] at h1
  cases r with
  | throws => exact h1
  | ub => exact absurd rfl h1.1
  | ok u =>
    dsimp only
    have h2 : Safe (each (readDim m.strings) c1 m.dims) :=
      each_safe _ _ (fun d hd c hc => andThen_safe c hc _ (by rw [str_lt hm.size (hm.dims d hd)]; simp) _
        fun n _ => safe_addDimension c hc _) c1 h1.2
    rcases e2 : each (readDim m.strings) c1 m.dims with ⟨c2, r2⟩
    rw [e2] at h2
    cases r2 with
    | throws => exact h2
    | ub => exact absurd rfl h2.1
    | ok u =>
      refine each_safe _ _ (fun v hv c hc => ?_) c2 h2.2
      obtain ⟨g1, g2, g3, g4⟩ := hm.vars v hv
      refine andThen_safe c hc _ (mapM_str_ok hm.size _ g3) _ fun sh _ => andThen_safe c hc _ (by rw [str_lt hm.size g1]; simp) _
        fun n _ => andThen_safe c hc _ (readData_not_ub hm.size _ g2) _ fun d _ => ?_
      have h3 := safe_addVariable c hc ⟨n, sh, ⟨heldOf v.data.type d, none⟩⟩
      rcases e3 : addVariable c ⟨n, sh, ⟨heldOf v.data.type d, none⟩⟩ with ⟨c3, r3⟩
      rw [e3] at h3
      cases r3 with
      | throws => exact h3
      | ub => exact absurd rfl h3.1
      | ok u => exact safe_readAttributes hm.size n c3 h3.2 _ g4

/-- A loop of `readCDM` that comes to its end has come to the end of each of its steps. -/
theorem each_ok {α : Type} (step : Dataset F D CS → α → Dataset F D CS × Res Unit) : ∀ (l : List α) (c c' : Dataset F D CS),
    each step c l = (c', .ok ()) → ∀ a ∈ l, ∃ c1 c2, step c1 a = (c2, .ok ())
  | [], _, _, _ => by simp
  | b :: l, c, c', h => by
    intro a ha
    rw [each] at h
    rcases e : step c b with ⟨c1, r⟩
    rw [e] at h
    cases r with
    | ok u =>
      rcases List.mem_cons.1 ha with rfl | ha
      · exact ⟨c, c1, e⟩
      · exact each_ok step l c1 c' h a ha
    | throws => cases h
    | ub => cases h

theorem andThen_ok {α : Type} {c c' : Dataset F D CS} {r : Res α} {k : α → Dataset F D CS × Res Unit}
    (h : andThen c r k = (c', .ok ())) : ∃ a, r = .ok a ∧ k a = (c', .ok ()) := by
  cases r with
  | ok a => exact ⟨a, rfl, h⟩
  | throws => cases h
  | ub => cases h

theorem readData_ok {T : List String} {f : FData F D} {d : Option (Data F D)} (h : readData T f = .ok d) :
    f.type ≤ 12 := by
  unfold readData at h
  by_contra hc
  have : ofCode f.type = none := by
    obtain ⟨k, hk⟩ : ∃ k, f.type = k + 13 := ⟨f.type - 13, by omega⟩
    rw [hk]; rfl
  rw [this] at h
  cases h

theorem readAttributes_ok {T : List String} {n : String} {c c' : Dataset F D CS} {fs : List (FAttr F D)}
    (h : readAttributes T n c fs = (c', .ok ())) : ∀ a ∈ fs, a.data.type ≤ 12 := by
  intro a ha
  obtain ⟨c1, c2, e⟩ := each_ok _ _ _ _ h a ha
  obtain ⟨x, hx, -⟩ := andThen_ok e
  unfold readAttribute at hx
  rw [Res.bind_eq_ok] at hx
  obtain ⟨d, hd, -⟩ := hx
  exact readData_ok hd

/-- C73: a file that is read to its end has only data of the thirteen known types, in its variables and in all
attributes; a file with another number for a type is refused. -/
theorem C73_unknown_types_refused (m : FCdm F D) (c c' : Dataset F D CS) (h : readCDM c m = (c', .ok ())) :
    (∀ a ∈ m.globals, a.data.type ≤ 12) ∧
    ∀ v ∈ m.vars, v.data.type ≤ 12 ∧ ∀ a ∈ v.attributes, a.data.type ≤ 12 := by
  unfold readCDM at h
  rcases e1 : readAttributes m.strings globalNS c m.globals with ⟨c1, r1⟩
  rw [e1] at h
  cases r1 with
  | throws => cases h
  | ub => cases h
  | ok u =>
    dsimp only at h
    rcases e2 : each (readDim m.strings) c1 m.dims with ⟨c2, r2⟩
    rw [e2] at h
    cases r2 with
    | throws => cases h
    | ub => cases h
    | ok u =>
      refine ⟨readAttributes_ok e1, fun v hv => ?_⟩
      obtain ⟨d1, d2, e⟩ := each_ok _ _ _ _ h v hv
      unfold readVar at e
      obtain ⟨sh, -, e⟩ := andThen_ok e
      obtain ⟨n, -, e⟩ := andThen_ok e
      obtain ⟨d, hd, e⟩ := andThen_ok e
      refine ⟨readData_ok hd, ?_⟩
      rcases e3 : addVariable d1 ⟨n, sh, ⟨heldOf v.data.type d, none⟩⟩ with ⟨d3, r3⟩
      rw [e3] at e
      cases r3 with
      | throws => cases e
      | ub => cases e
      | ok u => exact readAttributes_ok e

example : ∃ c', readCDM (emptyCDM ()) (⟨["x"], [], [], [⟨0, { type := 4, f32 := [7] }⟩]⟩ : FCdm Nat Nat) =
    (c', .ok ()) := ⟨_, rfl⟩
example : (readCDM (emptyCDM ()) (⟨["x"], [], [], [⟨0, { type := 13 }⟩]⟩ : FCdm Nat Nat)).2 = .throws := by
  decide +kernel

/-- A file with an index that is too large is not refused. -/
theorem C73_open_file_undefined : ∃ m : FCdm Nat Nat, (readCDM (emptyCDM ()) m).2 = .ub :=
  ⟨⟨["x"], [⟨1, 3, false⟩], [], []⟩, by decide +kernel⟩

example : FCdm.Closed (⟨["x"], [⟨0, 3, false⟩], [], []⟩ : FCdm Nat Nat) :=
  ⟨by decide, by simp, by simp, by simp⟩

/-! ### The first bytes -/

theorem strncmpEq_zero (n : Nat) (as bs : List Nat) : strncmpEq (n + 1) (0 :: as) bs = true ↔ bs.head? = some 0 := by
  cases bs with
  | nil => simp [strncmpEq]
  | cons b bs => by_cases h : b = 0 <;> simp [strncmpEq, h, eq_comm]

theorem strncmpEq_cons (n a : Nat) (ha : a ≠ 0) (as bs : List Nat) :
    strncmpEq (n + 1) (a :: as) bs = true ↔ bs.head? = some a ∧ strncmpEq n as bs.tail = true := by
  cases bs with
  | nil => simp [strncmpEq]
  | cons b bs =>
    by_cases h : a = b
    · subst h; simp [strncmpEq, ha]
    · have h' : b ≠ a := fun e => h e.symm
      simp [strncmpEq, h, h']

/-- C73: a file is taken for an index if and only if it has at least 12 bytes, begins with `FMXIDX` and a zero
byte, and has `G` and a zero byte at positions 8 and 9. Byte 7, which should be `P`, and bytes 10 and 11 are
never looked at, because `strncmp` stops at the zero byte. -/
theorem C73_magic_accepted_iff (b : List Nat) : checkMagic b = true ↔
    12 ≤ b.length ∧ b.take 7 = [70, 77, 88, 73, 68, 88, 0] ∧ b[8]? = some 71 ∧ b[9]? = some 0 := by
  have h1 : strncmpEq 8 fimexMagic b = true ↔ b.take 7 = [70, 77, 88, 73, 68, 88, 0] := by
    unfold fimexMagic
    rw [strncmpEq_cons _ _ (by decide), strncmpEq_cons _ _ (by decide), strncmpEq_cons _ _ (by decide),
      strncmpEq_cons _ _ (by decide), strncmpEq_cons _ _ (by decide), strncmpEq_cons _ _ (by decide), strncmpEq_zero]
    rcases b with _ | ⟨b0, _ | ⟨b1, _ | ⟨b2, _ | ⟨b3, _ | ⟨b4, _ | ⟨b5, _ | ⟨b6, b⟩⟩⟩⟩⟩⟩⟩ <;> simp
  have h2 : strncmpEq 4 gribMagic (b.drop 8) = true ↔ b[8]? = some 71 ∧ b[9]? = some 0 := by
    simp only [gribMagic]
    rw [strncmpEq_cons _ _ (by decide), strncmpEq_zero]
    rw [List.head?_drop, List.tail_drop, List.head?_drop]
  unfold checkMagic
  rw [show fimexMagic.length = 8 from rfl, show gribMagic.length = 4 from rfl]
  by_cases h0 : b.length < 8 + 4
  · rw [if_pos h0]
    simp only [Bool.false_eq_true, false_iff]
    rintro ⟨h, _⟩; omega
  · rw [if_neg h0]
    have h0 : 12 ≤ b.length := by omega
    cases e1 : strncmpEq 8 fimexMagic b <;> cases e2 : strncmpEq 4 gribMagic (b.drop 8) <;> rw [e1] at h1 <;> rw [e2] at h2 <;>
      simp_all

/-- The bytes the writer puts at the beginning are accepted, whatever follows. -/
theorem C73_written_magic_accepted (rest : List Nat) : checkMagic (fimexMagic ++ gribMagic ++ rest) = true := by
  rw [C73_magic_accepted_iff]
  simp [fimexMagic, gribMagic]

/-- The kind of file, written as `P` for protobuf, is not checked. -/
theorem C73_wrong_kind_accepted : ∃ b : List Nat, b[7]? ≠ fimexMagic[7]? ∧ checkMagic b = true :=
  ⟨[70, 77, 88, 73, 68, 88, 0, 81, 71, 0, 9, 9], by decide, by decide⟩

/-! ### Where the messages are -/

theorem readIndex_vars (zero : D) : ∀ (vs : List (String × GribVar D)) (m : String → Option (GribVar D)),
    (vs.map (·.1)).Nodup → (∀ v ∈ vs, m v.1 = none) → ∀ n,
    vs.foldl (readIndexVar zero) m n = (match vs.find? (fun v => v.1 == n) with | some v => some v.2 | none => m n)
  | [], _, _, _, _ => rfl
  | v :: vs, m, hn, hm, n => by
    rw [List.map_cons, List.nodup_cons] at hn
    rw [List.foldl_cons, readIndex_vars zero vs _ hn.2]
    · by_cases e : v.1 = n
      · subst e
        have : vs.find? (fun w => w.1 == v.1) = none := by
          rw [List.find?_eq_none]
          intro w hw h
          exact hn.1 (by simpa using ⟨w.2, by simpa [← (by simpa using h : w.1 = v.1)] using hw⟩)
        rw [this]
        simp [readIndexVar, hm v (by simp)]
      · have e' : n ≠ v.1 := fun h => e h.symm
        simp [readIndexVar, e, e']
    · intro w hw
      have : w.1 ≠ v.1 := fun h => hn.1 (h ▸ List.mem_map_of_mem hw)
      simp [readIndexVar, this, hm w (by simp [hw])]

/-- C73: the index of messages is restored: for every variable scale, offset and the sequence of its messages
with file number, start and size, and nothing for other names. -/
theorem C73_message_index_restored (zero : D) (g : Indexed D) (hn : (g.vars.map (·.1)).Nodup)
    (hs : ∀ v ∈ g.vars, ∀ c ∈ v.2.messages, c.file < 2 ^ 32 ∧ c.size < 2 ^ 32) :
    ∃ f, writeIndex g = .ok f ∧ f.files.length = g.files.length ∧
      (∀ v ∈ g.vars, (readIndex zero f).2 v.1 = some v.2) ∧
      ∀ n, n ∉ g.vars.map (·.1) → (readIndex zero f).2 n = none := by
  have hf : ∃ fs, g.files.mapM Files.extractFilename = .ok fs ∧ fs.length = g.files.length := by
    generalize g.files = l
    induction l with
    | nil => exact ⟨[], rfl, rfl⟩
    | cons a l ih =>
      obtain ⟨fs, e, hl⟩ := ih
      obtain ⟨_, file, _, h2, _⟩ := Files.C51_split_is_lossless a
      exact ⟨file :: fs, by rw [List.mapM_cons, h2, Res.ok_bind, e]; rfl, by simp [hl]⟩
  obtain ⟨fs, e, hl⟩ := hf
  have hid : (g.vars.map fun v => (v.1, { v.2 with messages := v.2.messages.map writeChunk })) = g.vars := by
    conv_rhs => rw [← List.map_id g.vars]
    refine List.map_congr_left fun v hv => ?_
    have : v.2.messages.map writeChunk = v.2.messages := by
      conv_rhs => rw [← List.map_id v.2.messages]
      refine List.map_congr_left fun c hc => ?_
      obtain ⟨h1, h2⟩ := hs v hv c hc
      unfold writeChunk u32
      rw [Nat.mod_eq_of_lt h1, Nat.mod_eq_of_lt h2]; rfl
    rw [this]; rfl
  refine ⟨⟨fs, g.vars⟩, ?_, hl, ?_, ?_⟩
  · simp only [writeIndex, e, Res.ok_bind, hid]
  · intro v hv
    simp only [readIndex]
    rw [readIndex_vars zero _ _ hn (fun _ _ => rfl)]
    cases h : g.vars.find? (fun w => w.1 == v.1) with
    | none => rw [List.find?_eq_none] at h; exact absurd (by simp) (h v hv)
    | some w =>
      have h1 := List.mem_of_find?_eq_some h
      have h2 : w.1 = v.1 := by simpa using List.find?_some h
      have : w = v := List.inj_on_of_nodup_map hn h1 hv h2
      rw [this]
  · intro n hni
    simp only [readIndex]
    rw [readIndex_vars zero _ _ hn (fun _ _ => rfl)]
    cases h : g.vars.find? (fun w => w.1 == n) with
    | none => rfl
    | some w =>
      have h1 := List.mem_of_find?_eq_some h
      have h2 : w.1 = n := by simpa using List.find?_some h
      exact absurd (List.mem_map_of_mem h1) (h2 ▸ hni)

example : writeIndex (⟨["/d/a.grb".toList], [("t", ⟨1, 0, [⟨0, 2 ^ 33, 100⟩]⟩)]⟩ : Indexed Nat) =
    .ok ⟨["a.grb".toList], [("t", ⟨1, 0, [⟨0, 2 ^ 33, 100⟩]⟩)]⟩ := by decide +kernel

/-- C73: if all files are in the directory that is given when reading, every message is looked for in the file
it came from. Number 0 is an empty name and marks the absence of a message (see C74). -/
theorem C73_message_found (g : Indexed D) (root : List Char) (hr : root = [] ∨ root.getLast? = some '/')
    (h : ∀ f ∈ g.files.tail, ∃ n, '/' ∉ n ∧ f = root ++ n) (f : FIndex D) (hf : writeIndex g = .ok f) (c : Chunk)
    (hc : 0 < c.file) : messageUrl root f.files c = g.files[c.file]? := by
  have key : ∀ (l : List (List Char)) (_ : ∀ f ∈ l, ∃ n, '/' ∉ n ∧ f = root ++ n) (fs : List (List Char)),
      l.mapM Files.extractFilename = .ok fs → fs.map (Files.joinFilename root) = l := by
    intro l
    induction l with
    | nil => intro _ fs e; cases e; rfl
    | cons a l ih =>
      intro hl fs e
      obtain ⟨n, hn, ha⟩ := hl a (by simp)
      have hj : Files.joinFilename root n = a := by
        rw [ha, Files.joinFilename, if_neg]
        rintro ⟨h1, h2⟩
        rcases hr with h | h
        · exact h1 h
        · exact h2 h
      have hx : Files.extractFilename a = .ok n := hj ▸ (Files.C51_join root n hn).1
      rw [List.mapM_cons, hx, Res.ok_bind] at e
      cases e2 : l.mapM Files.extractFilename with
      | throws => rw [e2, Res.throws_bind] at e; cases e
      | ub => rw [e2, Res.ub_bind] at e; cases e
      | ok gs =>
        rw [e2, Res.ok_bind] at e
        cases e
        rw [List.map_cons, hj, ih (fun f hf => hl f (by simp [hf])) gs e2]
  unfold writeIndex at hf
  cases e : g.files.mapM Files.extractFilename with
  | throws => rw [e, Res.throws_bind] at hf; cases hf
  | ub => rw [e, Res.ub_bind] at hf; cases hf
  | ok fs =>
    rw [e, Res.ok_bind] at hf
    cases hf
    unfold messageUrl
    obtain ⟨i, hi⟩ : ∃ i, c.file = i + 1 := ⟨c.file - 1, by omega⟩
    rw [hi]
    cases hg : g.files with
    | nil => rw [hg] at e; cases e; rfl
    | cons a l =>
      rw [hg] at e h
      rw [List.mapM_cons] at e
      cases e1 : Files.extractFilename a with
      | throws => rw [e1, Res.throws_bind] at e; cases e
      | ub => rw [e1, Res.ub_bind] at e; cases e
      | ok b =>
        rw [e1, Res.ok_bind] at e
        cases e2 : l.mapM Files.extractFilename with
        | throws => rw [e2, Res.throws_bind] at e; cases e
        | ub => rw [e2, Res.ub_bind] at e; cases e
        | ok gs =>
          rw [e2, Res.ok_bind] at e
          cases e
          rw [List.getElem?_cons_succ, List.getElem?_cons_succ, ← List.getElem?_map, key l h gs e2]

example : writeIndex (⟨[[], "/d/a.grb".toList], [("t", ⟨1, 0, [⟨1, 2 ^ 33, 100⟩]⟩)]⟩ : Indexed Nat) =
      .ok ⟨[[], "a.grb".toList], [("t", ⟨1, 0, [⟨1, 2 ^ 33, 100⟩]⟩)]⟩ ∧
    messageUrl "/d/".toList [[], "a.grb".toList] ⟨1, 0, 5⟩ = some "/d/a.grb".toList := by decide +kernel

/-- Two files with the same name in different directories cannot be told apart after reading the index. -/
theorem C73_same_name_confused : ∃ (g : Indexed Nat) (f : FIndex Nat), g.files[0]? ≠ g.files[1]? ∧ writeIndex g = .ok f ∧
    ∀ root, messageUrl root f.files ⟨0, 0, 1⟩ = messageUrl root f.files ⟨1, 0, 1⟩ :=
  ⟨⟨["a/x".toList, "b/x".toList], []⟩, ⟨["x".toList, "x".toList], []⟩, by decide +kernel, by decide +kernel, fun _ => rfl⟩

end Fimex.Pb
