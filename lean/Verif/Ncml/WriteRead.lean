import Verif.Ncml.WriteLemmas

/-! # Lemmas: reading of documents that only add to an empty dataset -/

namespace Fimex.NcmlWrite

open Cdm hiding lengthOf
open Tables NcmlDoc

variable {D V CS : Type}

/-- What the reader gets of the element of a dimension. -/
structure DimNode (env : Env D V) (x : Xml) (d : Dim) : Prop where
  tag : x.tag = "dimension"
  name : x.prop "name" = d.name
  org : x.has "orgName" = false
  length : x.has "length" = true
  int : env.int (x.prop "length") = .ok (d.length : Int)
  small : d.length < two64
  hasUnlimited : x.has "isUnlimited" = d.unlimited
  unlimited : d.unlimited = true → x.prop "isUnlimited" = "true"

/-- What the reader gets of the element of an attribute. -/
structure AttrNode (env : Env D V) (x : Xml) (a : Attr V) : Prop where
  tag : x.tag = "attribute"
  org : x.has "orgName" = false
  text : textOf x ≠ ""
  create : createAttr env x (textOf x) = .ok a

/-- What the reader gets of the element of a variable. -/
structure VarNode (env : Env D V) (x : Xml) (n : String) (sh : List String) (u t : DataType) (b : D) : Prop where
  tag : x.tag = "variable"
  name : x.prop "name" = n
  hasName : x.has "name" = true
  nonempty : n ≠ ""
  org : x.has "orgName" = false
  orgText : x.prop "orgName" = ""
  shape : env.shape (x.prop "shape") = .ok sh
  hasType : x.has "type" = true
  type : x.prop "type" ≠ ""
  before : string2datatype (x.prop "type").toList = u
  after : ncmlName2cdm (x.prop "type").toList false = t
  notNat : t ≠ .nat
  blank : env.blank u = .ok b
  blankType : env.typeOf b = u
  remove : x.kids "remove" = []
  vectors : x.kids "spatial_vector" = []

def off (d : Dim) : Dim := { d with unlimited := false }

theorem toSizeT_nat {n : Nat} (h : n < two64) : Extractor.toSizeT (n : Int) = n := by
  unfold Extractor.toSizeT
  rw [Int.emod_eq_of_lt (by omega) (by exact_mod_cast h)]
  rfl

theorem dims_fold (env : Env D V) {at_ : String → Option (List (Attr V))} {vs : List (Var (Payload D))} {cs : CS} {vn dn : Ncml.Names} {ty : List (String × DataType)} :
    ∀ {xs : List Xml} {ds : List Dim} (pre : List Dim), List.Forall₂ (DimNode env) xs ds → ((pre ++ ds).map (·.name)).Nodup →
      xs.foldlM (lengthOf env) (⟨⟨at_, vs, pre, false, cs⟩, vn, dn, ty⟩ : St D V CS) = .ok ⟨⟨at_, vs, pre ++ ds.map off, false, cs⟩, vn, dn, ty⟩
  | [], [], pre, .nil, _ => by simp [pure]
  | x :: xs, d :: ds, pre, .cons h hs, hn => by
    rw [List.foldlM_cons]
    have hno : hasDimension (⟨at_, vs, pre, false, cs⟩ : CDM (Payload D) V CS) d.name = false := by
      rw [Bool.eq_false_iff, Ne, hasDimension_iff]
      intro hm
      rw [List.map_append, List.map_cons, List.nodup_append] at hn
      exact hn.2.2 _ hm _ List.mem_cons_self rfl
    have h1 : lengthOf env (⟨⟨at_, vs, pre, false, cs⟩, vn, dn, ty⟩ : St D V CS) x = .ok ⟨⟨at_, vs, pre ++ [off d], false, cs⟩, vn, dn, ty⟩ := by
      unfold lengthOf
      rw [h.int, h.name]
      simp only [Res.bind, hno, Bool.not_false, if_true, addDimension, toSizeT_nat h.small]
      rfl
    rw [h1]
    have h2 := dims_fold env (at_ := at_) (vs := vs) (cs := cs) (vn := vn) (dn := dn) (ty := ty) (pre ++ [off d]) hs (by simpa [off] using hn)
    rw [List.append_assoc] at h2
    exact h2

theorem unlimited_fold (env : Env D V) {at_ : String → Option (List (Attr V))} {cs : CS} {vn dn : Ncml.Names} {ty : List (String × DataType)} :
    ∀ {xs : List Xml} {ds : List Dim} (pre : List Dim), List.Forall₂ (DimNode env) xs ds → ((pre ++ ds).map (·.name)).Nodup →
      (xs.filter fun e => e.has "isUnlimited").foldlM (unlimitedOf env) (⟨⟨at_, [], pre ++ ds.map off, false, cs⟩, vn, dn, ty⟩ : St D V CS) =
        .ok ⟨⟨at_, [], pre ++ ds, false, cs⟩, vn, dn, ty⟩
  | [], [], pre, .nil, _ => by simp [pure]
  | x :: xs, d :: ds, pre, .cons h hs, hn => by
    have ih := unlimited_fold env (at_ := at_) (cs := cs) (vn := vn) (dn := dn) (ty := ty) (pre ++ [d]) hs (by simpa using hn)
    rw [List.append_assoc, List.append_assoc] at ih
    cases hu : d.unlimited with
    | false =>
      have ho : off d = d := by cases d; simp only [off] at *; rw [hu]
      rw [List.filter_cons_of_neg (by rw [h.hasUnlimited, hu]; decide), List.map_cons, ho]
      exact ih
    | true =>
      rw [List.filter_cons_of_pos (by rw [h.hasUnlimited, hu]), List.foldlM_cons]
      rw [List.map_append, List.map_cons, List.nodup_append, List.nodup_cons] at hn
      obtain ⟨-, ⟨hd1, -⟩, hd2⟩ := hn
      have hpre : ∀ e ∈ pre, e.name ≠ d.name := fun e he => hd2 _ (List.mem_map_of_mem he) _ List.mem_cons_self
      have hpost : ∀ e ∈ ds, e.name ≠ d.name := fun e he h => hd1 (h ▸ List.mem_map_of_mem he)
      have hg : getDimension (⟨at_, [], pre ++ (d :: ds).map off, false, cs⟩ : CDM (Payload D) V CS) d.name = .ok (off d) := by
        unfold getDimension
        have : (pre ++ (d :: ds).map off).find? (fun e => e.name == d.name) = some (off d) := by
          rw [List.find?_append, List.find?_eq_none.2 (by simpa using hpre), List.map_cons, List.find?_cons_of_pos (by simp [off])]
          rfl
        dsimp only
        rw [this]
      have hv : ∀ c : CDM (Payload D) V CS, c.vars = [] → getVariable c d.name = .throws := by
        intro c hc
        unfold getVariable
        rw [hc]
        rfl
      have hon : (pre ++ (d :: ds).map off).map (fun e => if e.name = d.name then { e with unlimited := true } else e) = pre ++ d :: ds.map off := by
        rw [List.map_append, List.map_cons, List.map_cons, List.map_map]
        congr 1
        · conv_rhs => rw [← List.map_id pre]
          apply List.map_congr_left
          intro e he
          rw [if_neg (hpre e he)]
          rfl
        · congr 1
          · rw [if_pos (show (off d).name = d.name from rfl)]
            cases d
            simp only [off] at *
            rw [hu]
          · apply List.map_congr_left
            intro e he
            exact if_neg (hpost e he)
      have h1 : unlimitedOf env (⟨⟨at_, [], pre ++ (d :: ds).map off, false, cs⟩, vn, dn, ty⟩ : St D V CS) x = .ok ⟨⟨at_, [], pre ++ d :: ds.map off, false, cs⟩, vn, dn, ty⟩ := by
        unfold unlimitedOf
        rw [h.name, h.unlimited hu]
        dsimp only
        rw [hg]
        dsimp only
        rw [if_pos rfl, if_neg (by simp [off])]
        unfold prefetch onDim
        dsimp only
        rw [hv _ rfl, hon]
      rw [h1]
      exact ih

/-- What is known of the variables: names, shapes, types before and after the pass of types, and values of new variables. -/
abbrev Known (D : Type) := String × List String × DataType × DataType × D

def fresh (k : Known D) : Var (Payload D) := ⟨k.1, k.2.1, ⟨k.2.2.1, some k.2.2.2.2, "", .none⟩⟩

def typed (k : Known D) : Var (Payload D) := ⟨k.1, k.2.1, ⟨k.2.2.2.1, if k.2.2.1 = k.2.2.2.1 then some k.2.2.2.2 else none, "", .none⟩⟩

def Node (env : Env D V) (x : Xml) (k : Known D) : Prop := VarNode env x k.1 k.2.1 k.2.2.1 k.2.2.2.1 k.2.2.2.2

theorem shapes_fold (env : Env D V) {at_ : String → Option (List (Attr V))} {ds : List Dim} {cs : CS} {vn dn : Ncml.Names} {ty : List (String × DataType)} :
    ∀ {xs : List Xml}, (∀ x ∈ xs, ∃ k, Node env x k) →
      (xs.filter fun e => e.has "shape").foldlM (shapeOf env) (⟨⟨at_, [], ds, false, cs⟩, vn, dn, ty⟩ : St D V CS) = .ok ⟨⟨at_, [], ds, false, cs⟩, vn, dn, ty⟩
  | [], _ => rfl
  | x :: xs, h => by
    have ih := shapes_fold env (at_ := at_) (ds := ds) (cs := cs) (vn := vn) (dn := dn) (ty := ty) (xs := xs) fun y hy => h y (List.mem_cons_of_mem _ hy)
    rw [List.filter_cons]
    split
    · rw [List.foldlM_cons]
      obtain ⟨k, hk⟩ := h x List.mem_cons_self
      have h1 : shapeOf env (⟨⟨at_, [], ds, false, cs⟩, vn, dn, ty⟩ : St D V CS) x = .ok ⟨⟨at_, [], ds, false, cs⟩, vn, dn, ty⟩ := by
        unfold shapeOf
        rw [hk.orgText, hk.name]
        dsimp only
        rw [if_pos rfl, if_neg hk.nonempty, if_neg (by simp [hasVariable])]
      rw [h1]
      exact ih
    · exact ih

theorem fresh_name (k : Known D) : (fresh k).name = k.1 := rfl

theorem add_fold (env : Env D V) {at_ : String → Option (List (Attr V))} {ds : List Dim} {cs : CS} {vn dn : Ncml.Names} {ty : List (String × DataType)} :
    ∀ {xs : List Xml} {ks : List (Known D)} (pre : List (Known D)), List.Forall₂ (Node env) xs ks → ((pre ++ ks).map (·.1)).Nodup →
      xs.foldlM (addOne env) (⟨⟨at_, pre.map fresh, ds, false, cs⟩, vn, dn, ty⟩ : St D V CS) = .ok ⟨⟨at_, (pre ++ ks).map fresh, ds, false, cs⟩, vn, dn, ty⟩
  | [], [], pre, .nil, _ => by simp [pure]
  | x :: xs, k :: ks, pre, .cons h hs, hn => by
    rw [List.foldlM_cons]
    have hno : hasVariable (⟨at_, pre.map fresh, ds, false, cs⟩ : CDM (Payload D) V CS) k.1 = false := by
      rw [Bool.eq_false_iff, Ne, hasVariable_iff]
      intro hm
      rw [List.map_append, List.map_cons, List.nodup_append] at hn
      rw [List.map_map] at hm
      exact hn.2.2 _ hm _ List.mem_cons_self rfl
    have h1 : addOne env (⟨⟨at_, pre.map fresh, ds, false, cs⟩, vn, dn, ty⟩ : St D V CS) x = .ok ⟨⟨at_, (pre ++ [k]).map fresh, ds, false, cs⟩, vn, dn, ty⟩ := by
      unfold addOne
      rw [h.name]
      dsimp only
      rw [h.before]
      rw [if_pos ⟨h.type, hno⟩, h.shape]
      simp only [Res.bind, h.blank]
      rw [if_neg (by rw [h.blankType]; simp)]
      simp only [addVariable, hno, Bool.not_false, if_true]
      rw [List.map_append]
      rfl
    rw [h1]
    have h2 := add_fold env (at_ := at_) (ds := ds) (cs := cs) (vn := vn) (dn := dn) (ty := ty) (pre ++ [k]) hs (by simpa using hn)
    rw [List.append_assoc] at h2
    exact h2

theorem find_middle {P : Type} {pre post : List (Var P)} {v : Var P} {at_ : String → Option (List (Attr V))} {ds : List Dim} {cs : CS} (hpre : ∀ w ∈ pre, w.name ≠ v.name) :
    getVariable (⟨at_, pre ++ v :: post, ds, false, cs⟩ : CDM P V CS) v.name = .ok v := by
  unfold getVariable
  dsimp only
  rw [List.find?_append, List.find?_eq_none.2 (by simpa using hpre), List.find?_cons_of_pos (by simp)]
  rfl

theorem map_middle {pre post : List (Var (Payload D))} {v : Var (Payload D)} {n : String} (hv : v.name = n) (f : Var (Payload D) → Var (Payload D))
    (hpre : ∀ w ∈ pre, w.name ≠ n) (hpost : ∀ w ∈ post, w.name ≠ n) :
    (pre ++ v :: post).map (fun v => if v.name = n then f v else v) = pre ++ f v :: post := by
  rw [List.map_append, List.map_cons, if_pos hv]
  congr 1
  · conv_rhs => rw [← List.map_id pre]
    exact List.map_congr_left fun w hw => by rw [if_neg (hpre w hw)]; rfl
  · congr 1
    conv_rhs => rw [← List.map_id post]
    exact List.map_congr_left fun w hw => by rw [if_neg (hpost w hw)]; rfl

theorem sides {pre post : List (Known D)} {k : Known D} (hn : ((pre ++ k :: post).map (·.1)).Nodup) :
    (∀ j ∈ pre, j.1 ≠ k.1) ∧ ∀ j ∈ post, j.1 ≠ k.1 := by
  rw [List.map_append, List.map_cons, List.nodup_append, List.nodup_cons] at hn
  obtain ⟨-, ⟨hd1, -⟩, hd2⟩ := hn
  exact ⟨fun e he => hd2 _ (List.mem_map_of_mem he) _ List.mem_cons_self, fun e he h => hd1 (h ▸ List.mem_map_of_mem he)⟩

theorem types_fold (env : Env D V) {doc : Xml} (hdoc : doc.tag = "netcdf") {at_ : String → Option (List (Attr V))} {ds : List Dim} {cs : CS} {vn dn : Ncml.Names} :
    ∀ {xs : List Xml} {ks : List (Known D)} (pre : List (Known D)) (ty : List (String × DataType)), List.Forall₂ (Node env) xs ks → ((pre ++ ks).map (·.1)).Nodup →
      ∃ ty', xs.foldlM (typeOne env doc) (⟨⟨at_, pre.map typed ++ ks.map fresh, ds, false, cs⟩, vn, dn, ty⟩ : St D V CS) =
        .ok ⟨⟨at_, (pre ++ ks).map typed, ds, false, cs⟩, vn, dn, ty'⟩
  | [], [], pre, ty, .nil, _ => ⟨ty, by simp [pure]⟩
  | x :: xs, k :: ks, pre, ty, .cons h hs, hn => by
    obtain ⟨hpre, hpost⟩ := sides hn
    have hu : unsigned doc = .ok false := by
      unfold unsigned absolute
      rw [hdoc, if_neg (by decide)]
      rfl
    have hp1 : ∀ w ∈ pre.map (typed (D := D)), w.name ≠ k.1 := by
      intro w hw
      obtain ⟨j, hj, rfl⟩ := List.mem_map.1 hw
      exact hpre j hj
    have hp2 : ∀ w ∈ ks.map (fresh (D := D)), w.name ≠ k.1 := by
      intro w hw
      obtain ⟨j, hj, rfl⟩ := List.mem_map.1 hw
      exact hpost j hj
    have hg : getVariable (⟨at_, pre.map typed ++ fresh k :: ks.map fresh, ds, false, cs⟩ : CDM (Payload D) V CS) k.1 = .ok (fresh k) := find_middle hp1
    have h1 : ∃ ty', typeOne env doc (⟨⟨at_, pre.map typed ++ (k :: ks).map fresh, ds, false, cs⟩, vn, dn, ty⟩ : St D V CS) x =
        .ok ⟨⟨at_, (pre ++ [k]).map typed ++ ks.map fresh, ds, false, cs⟩, vn, dn, ty'⟩ := by
      unfold typeOne
      rw [h.name]
      dsimp only
      rw [if_neg h.nonempty, hu]
      simp only [Res.bind, List.map_cons]
      rw [hg]
      dsimp only
      rw [h.after, if_neg h.notNat]
      have ht : (fresh k).payload.dtype = k.2.2.1 := rfl
      rw [ht]
      by_cases e : k.2.2.2.1 = k.2.2.1
      · rw [if_neg (by simpa using e)]
        refine ⟨ty, ?_⟩
        have : typed k = fresh k := by simp [typed, fresh, e]
        rw [List.map_append, List.map_singleton, this, List.append_assoc]
        rfl
      · rw [if_pos e]
        refine ⟨(k.1, k.2.2.2.1) :: ty, ?_⟩
        unfold onVar
        dsimp only
        rw [map_middle (n := k.1) (v := fresh k) rfl _ hp1 hp2]
        rw [List.map_append, List.map_singleton, List.append_assoc]
        have : setType env k.2.2.2.1 (fresh k).payload = (typed k).payload := by
          unfold setType fresh typed
          dsimp only
          rw [if_neg (fun h => e h.symm), Option.filter_some_neg]
          rw [h.blankType]
          simpa using fun h => e h.symm
        rw [this]
        rfl
    obtain ⟨ty1, h1⟩ := h1
    obtain ⟨ty', h2⟩ := types_fold env hdoc (at_ := at_) (ds := ds) (cs := cs) (vn := vn) (dn := dn) (pre ++ [k]) ty1 hs (by simpa using hn)
    refine ⟨ty', ?_⟩
    rw [List.foldlM_cons, h1]
    rw [List.append_assoc] at h2
    exact h2

/-! ## Values -/

def full (p : Known D × Option D) : Var (Payload D) :=
  match p.2 with
  | some d => ⟨p.1.1, p.1.2.1, ⟨p.1.2.2.2.1, some d, "", .none⟩⟩
  | none => typed p.1

/-- The element of values of a variable, and what the reader makes of it. -/
structure ValuesNode (env : Env D V) (ds : List Dim) (at_ : String → Option (List (Attr V))) (cs : CS) (x : Xml) (p : Known D × Option D) : Prop where
  node : Node env x p.1
  none : p.2 = none → x.kids "values" = []
  some : ∀ d, p.2 = some d → env.typeOf d = p.1.2.2.2.1 ∧ ∃ y, x.kids "values" = [y] ∧ ∃ lens, (∀ vs, lengths (⟨at_, vs, ds, false, cs⟩ : CDM (Payload D) V CS) p.1.2.1 = .ok lens) ∧
    env.fill p.1.2.2.2.1 lens (y.prop "start") (y.prop "increment") y.content (y.prop "separator") = .ok d

theorem values_fold (env : Env D V) {at_ : String → Option (List (Attr V))} {ds : List Dim} {cs : CS} {vn dn : Ncml.Names} {ty : List (String × DataType)} :
    ∀ {xs : List Xml} {ps : List (Known D × Option D)} (pre : List (Known D × Option D)), List.Forall₂ (ValuesNode env ds at_ cs) xs ps →
      ((pre ++ ps).map (·.1.1)).Nodup →
      (xs.flatMap fun x => (x.kids "values").map fun e => (x, e)).foldlM (valuesOf env)
          (⟨⟨at_, pre.map full ++ ps.map (fun p => typed p.1), ds, false, cs⟩, vn, dn, ty⟩ : St D V CS) =
        .ok ⟨⟨at_, (pre ++ ps).map full, ds, false, cs⟩, vn, dn, ty⟩
  | [], [], pre, .nil, _ => by simp [pure]
  | x :: xs, p :: ps, pre, .cons h hs, hn => by
    have ih := values_fold env (at_ := at_) (ds := ds) (cs := cs) (vn := vn) (dn := dn) (ty := ty) (pre ++ [p]) hs (by simpa using hn)
    rw [List.append_assoc] at ih
    rw [List.flatMap_cons, List.foldlM_append]
    cases hp : p.2 with
    | none =>
      rw [h.none hp]
      have hf : full p = typed p.1 := by unfold full; rw [hp]
      rw [List.map_append, List.map_singleton, hf, List.append_assoc] at ih
      exact ih
    | some d =>
      obtain ⟨h1, y, h2, lens, h3, h4⟩ := h.some d hp
      rw [h2]
      have hsd := hn
      rw [List.map_append, List.map_cons, List.nodup_append, List.nodup_cons] at hsd
      obtain ⟨-, ⟨hd1, -⟩, hd2⟩ := hsd
      have hname : ∀ q : Known D × Option D, (full q).name = q.1.1 := by
        intro q
        unfold full
        split <;> rfl
      have hp1 : ∀ w ∈ pre.map (full (D := D)), w.name ≠ p.1.1 := by
        intro w hw
        obtain ⟨j, hj, rfl⟩ := List.mem_map.1 hw
        rw [hname]
        exact hd2 _ (List.mem_map_of_mem (f := fun x : Known D × Option D => x.1.1) hj) _ List.mem_cons_self
      have hp2 : ∀ w ∈ ps.map (fun p : Known D × Option D => typed p.1), w.name ≠ p.1.1 := by
        intro w hw
        obtain ⟨j, hj, rfl⟩ := List.mem_map.1 hw
        intro e
        exact hd1 (e ▸ List.mem_map_of_mem (f := fun x : Known D × Option D => x.1.1) hj)
      have hg : getVariable (⟨at_, pre.map full ++ typed p.1 :: ps.map (fun p => typed p.1), ds, false, cs⟩ : CDM (Payload D) V CS) p.1.1 = .ok (typed p.1) := find_middle hp1
      have h5 : valuesOf env (⟨⟨at_, pre.map full ++ (p :: ps).map (fun p => typed p.1), ds, false, cs⟩, vn, dn, ty⟩ : St D V CS) (x, y) =
          .ok ⟨⟨at_, (pre ++ [p]).map full ++ ps.map (fun p => typed p.1), ds, false, cs⟩, vn, dn, ty⟩ := by
        unfold valuesOf
        dsimp only
        rw [h.node.name, if_neg h.node.nonempty, List.map_cons, hg]
        dsimp only
        rw [show (typed p.1).shape = p.1.2.1 from rfl, show (typed p.1).payload.dtype = p.1.2.2.2.1 from rfl, h3]
        simp only [Res.bind]
        rw [h4]
        dsimp only
        unfold setData
        rw [if_neg (by rw [h1]; exact fun h => h rfl)]
        unfold onVar
        dsimp only
        rw [map_middle (n := p.1.1) (v := typed p.1) rfl _ hp1 hp2, List.map_append, List.map_singleton, List.append_assoc]
        have : full p = { typed p.1 with payload := { (typed p.1).payload with data := some d } } := by unfold full; rw [hp]; rfl
        rw [this]
        rfl
      rw [List.map_singleton, List.foldlM_cons, h5]
      exact ih

/-! ## Attributes -/

theorem attrs_fold (env : Env D V) (owner : String) : ∀ {xs : List Xml} {as : List (Attr V)} (s : St D V CS), List.Forall₂ (AttrNode env) xs as →
    s.cdm.coordsInitialized = false → (owner = globalNS ∨ hasVariable s.cdm owner = true) → ((getAttributes s.cdm owner ++ as).map (·.name)).Nodup →
    ∃ at_, xs.foldlM (assignAttr env owner) s = .ok { s with cdm := { s.cdm with attrs := at_ } } ∧
      (at_ owner).getD [] = getAttributes s.cdm owner ++ as ∧ ∀ m, m ≠ owner → at_ m = s.cdm.attrs m
  | [], [], s, .nil, _, _, _ => ⟨s.cdm.attrs, rfl, by simp [getAttributes], fun _ _ => rfl⟩
  | x :: xs, a :: as, s, .cons h hs, hc, ho, hn => by
    have hno : ∀ b ∈ getAttributes s.cdm owner, b.name ≠ a.name := by
      intro b hb
      rw [List.map_append, List.map_cons, List.nodup_append] at hn
      exact hn.2.2 _ (List.mem_map_of_mem hb) _ List.mem_cons_self
    have hrem : getAttributes (removeAttribute s.cdm owner a.name) owner = getAttributes s.cdm owner := by
      unfold getAttributes removeAttribute
      dsimp only
      rw [if_pos rfl]
      unfold getAttributes at hno
      cases e : s.cdm.attrs owner with
      | none => rfl
      | some l =>
        rw [e] at hno
        simp only [Option.map_some, Option.getD_some] at hno ⊢
        rw [List.filter_eq_self]
        intro b hb
        simpa using hno b hb
    obtain ⟨at1, h1, h2, h3⟩ : ∃ at1, assignAttr env owner s x = .ok { s with cdm := { s.cdm with attrs := at1 } } ∧
        (at1 owner).getD [] = getAttributes s.cdm owner ++ [a] ∧ ∀ m, m ≠ owner → at1 m = s.cdm.attrs m := by
      unfold assignAttr
      rw [if_neg h.text, h.create]
      simp only [Res.bind]
      have hcond : ¬(owner ≠ globalNS ∧ (!hasVariable { removeAttribute s.cdm owner a.name with coordsInitialized := false } owner) = true) := by
        rintro ⟨e1, e2⟩
        rcases ho with ho | ho
        · exact e1 ho
        · have : hasVariable { removeAttribute s.cdm owner a.name with coordsInitialized := false } owner = hasVariable s.cdm owner := rfl
          rw [this, ho] at e2
          cases e2
      have hadd : addAttribute (removeAttribute s.cdm owner a.name) owner a =
          ({ s.cdm with coordsInitialized := false, attrs := fun m => if m = owner then some (getAttributes s.cdm owner ++ [a]) else if m = owner then some (getAttributes s.cdm owner) else s.cdm.attrs m }, .ok ()) := by
        unfold addAttribute
        dsimp only
        rw [if_neg hcond]
        have e0 : getAttributes { removeAttribute s.cdm owner a.name with coordsInitialized := false } owner = getAttributes s.cdm owner := hrem
        rw [e0]
        have e1 : ∀ f : String → Option (List (Attr V)), getAttributes ({ removeAttribute s.cdm owner a.name with coordsInitialized := false, attrs := fun m => if m = owner then some (getAttributes s.cdm owner) else f m } : CDM (Payload D) V CS) owner = getAttributes s.cdm owner := by
          intro f
          unfold getAttributes
          dsimp only
          rw [if_pos rfl]
          rfl
        rw [e1, if_neg]
        · congr 2
          funext m
          by_cases hm : m = owner
          · rw [if_pos hm, if_pos hm]
          · rw [if_neg hm, if_neg hm, if_neg hm, if_neg hm]
            unfold removeAttribute
            dsimp only
            rw [if_neg hm]
        · rw [Bool.not_eq_true, List.any_eq_false]
          intro b hb
          simpa using hno b hb
      rw [hadd]
      refine ⟨fun m => if m = owner then some (getAttributes s.cdm owner ++ [a]) else if m = owner then some (getAttributes s.cdm owner) else s.cdm.attrs m, ?_, ?_, ?_⟩
      · dsimp only
        rw [hc]
      · dsimp only
        rw [if_pos rfl]
        rfl
      · intro m hm
        dsimp only
        rw [if_neg hm, if_neg hm]
    have hg : getAttributes ({ s.cdm with attrs := at1 } : CDM (Payload D) V CS) owner = getAttributes s.cdm owner ++ [a] := h2
    obtain ⟨at2, g1, g2, g3⟩ := attrs_fold env owner { s with cdm := { s.cdm with attrs := at1 } } hs hc ho (by rw [hg]; simpa using hn)
    refine ⟨at2, ?_, ?_, fun m hm => by rw [g3 m hm]; exact h3 m hm⟩
    · rw [List.foldlM_cons, h1]
      exact g1
    · rw [g2, hg]
      simp

theorem varAttrs_fold (env : Env D V) (orig : String → List (Attr V)) (hn : ∀ n, ((orig n).map (·.name)).Nodup) : ∀ {xs : List Xml} {ns : List String} (s : St D V CS),
    List.Forall₂ (fun x n => x.prop "name" = n ∧ List.Forall₂ (AttrNode env) (x.kids "attribute") (orig n)) xs ns → s.cdm.coordsInitialized = false →
    (∀ n ∈ ns, hasVariable s.cdm n = true) → (∀ n ∈ ns, getAttributes s.cdm n = []) → ns.Nodup →
    ∃ at_, (xs.flatMap fun x => (x.kids "attribute").map fun e => (x, e)).foldlM (fun s p => assignAttr env (p.1.prop "name") s p.2) s =
        .ok { s with cdm := { s.cdm with attrs := at_ } } ∧
      (∀ n ∈ ns, (at_ n).getD [] = orig n) ∧ ∀ m, m ∉ ns → at_ m = s.cdm.attrs m
  | [], [], s, .nil, _, _, _, _ => ⟨s.cdm.attrs, rfl, fun _ h => absurd h List.not_mem_nil, fun _ _ => rfl⟩
  | x :: xs, n :: ns, s, .cons h hs, hc, hv, he, hd => by
    obtain ⟨at1, h1, h2, h3⟩ := attrs_fold env n s h.2 hc (Or.inr (hv n List.mem_cons_self)) (by rw [he n List.mem_cons_self]; exact hn n)
    rw [List.nodup_cons] at hd
    obtain ⟨at2, g1, g2, g3⟩ := varAttrs_fold env orig hn { s with cdm := { s.cdm with attrs := at1 } } hs hc (fun m hm => hv m (List.mem_cons_of_mem _ hm))
      (fun m hm => by
        unfold getAttributes
        dsimp only
        rw [h3 m (fun e => hd.1 (e ▸ hm))]
        exact he m (List.mem_cons_of_mem _ hm)) hd.2
    refine ⟨at2, ?_, ?_, ?_⟩
    · rw [List.flatMap_cons, List.foldlM_append]
      have : ((x.kids "attribute").map fun e => (x, e)).foldlM (fun s p => assignAttr env (p.1.prop "name") s p.2) s = (x.kids "attribute").foldlM (assignAttr env n) s := by
        rw [List.foldlM_map, ← h.1]
      rw [this, h1]
      exact g1
    · intro m hm
      rcases List.mem_cons.1 hm with rfl | hm
      · rw [g3 _ hd.1]
        dsimp only
        rw [h2, he _ List.mem_cons_self]
        rfl
      · exact g2 m hm
    · intro m hm
      rw [List.mem_cons, not_or] at hm
      rw [g3 m hm.2]
      exact h3 m hm.1

/-! ## All passes -/

theorem kids_other {l : List Xml} {t u : String} (h : ∀ x ∈ l, x.tag = u) (hne : u ≠ t) : (l.filter fun x => x.tag = t) = [] := by
  rw [List.filter_eq_nil_iff]
  intro x hx
  simpa [h x hx] using hne

theorem kids_same {l : List Xml} {t : String} (h : ∀ x ∈ l, x.tag = t) : (l.filter fun x => x.tag = t) = l := by
  rw [List.filter_eq_self]
  intro x hx
  simpa using h x hx

theorem forall_left {α β : Type} {R : α → β → Prop} : ∀ {l : List α} {m : List β}, List.Forall₂ R l m → ∀ a ∈ l, ∃ b ∈ m, R a b
  | _, _, .nil, _, h => absurd h List.not_mem_nil
  | _, _, .cons h hs, a, ha => by
    rcases List.mem_cons.1 ha with rfl | ha
    · exact ⟨_, List.mem_cons_self, h⟩
    · obtain ⟨b, hb, hr⟩ := forall_left hs a ha
      exact ⟨b, List.mem_cons_of_mem _ hb, hr⟩

theorem filter_none {l : List Xml} {p : Xml → Bool} (h : ∀ x ∈ l, p x = false) : l.filter p = [] := by
  rw [List.filter_eq_nil_iff]
  intro x hx
  rw [h x hx]
  decide

/-- A document with dimensions, attributes and variables, read into the empty dataset. -/
theorem read_added (env : Env D V) (cs : CS) {xd xa xv : List Xml} {ds : List Dim} {ga : List (Attr V)} {ps : List (Known D × Option D)} (orig : String → List (Attr V))
    (hd : List.Forall₂ (DimNode env) xd ds) (ha : List.Forall₂ (AttrNode env) xa ga) (hv : List.Forall₂ (ValuesNode env ds (fun _ => none) cs) xv ps)
    (hva : List.Forall₂ (fun x n => x.prop "name" = n ∧ List.Forall₂ (AttrNode env) (x.kids "attribute") (orig n)) xv (ps.map (·.1.1)))
    (hdn : (ds.map (·.name)).Nodup) (hvn : (ps.map (·.1.1)).Nodup) (hgn : (ga.map (·.name)).Nodup) (hon : ∀ n, ((orig n).map (·.name)).Nodup)
    (hglob : globalNS ∉ ps.map (·.1.1)) {props : List (String × String)} {content : String} {blank : CDM (Payload D) V CS} :
    ∃ s, init env (.node "netcdf" props content (xd ++ xa ++ xv)) ⟨fun _ => none, [], [], false, cs⟩ blank = .ok s ∧ s.cdm.dims = ds ∧ s.cdm.vars = ps.map full ∧
      getAttributes s.cdm globalNS = ga ∧ (∀ n ∈ ps.map (·.1.1), getAttributes s.cdm n = orig n) ∧
      ∀ n, n ≠ globalNS → n ∉ ps.map (·.1.1) → s.cdm.attrs n = none := by
  generalize hdoc : Xml.node "netcdf" props content (xd ++ xa ++ xv) = doc
  have htag : doc.tag = "netcdf" := by rw [← hdoc]; rfl
  have hkids : doc.children = xd ++ xa ++ xv := by rw [← hdoc]; rfl
  have td : ∀ x ∈ xd, x.tag = "dimension" := fun x hx => by obtain ⟨d, -, h⟩ := forall_left hd x hx; exact h.tag
  have ta : ∀ x ∈ xa, x.tag = "attribute" := fun x hx => by obtain ⟨d, -, h⟩ := forall_left ha x hx; exact h.tag
  have nv : ∀ x ∈ xv, ∃ k, Node env x k := fun x hx => by obtain ⟨p, -, h⟩ := forall_left hv x hx; exact ⟨_, h.node⟩
  have tv : ∀ x ∈ xv, x.tag = "variable" := fun x hx => by obtain ⟨k, h⟩ := nv x hx; exact h.tag
  have hunder : ∀ t, under doc t = (xd ++ xa ++ xv).filter fun x => x.tag = t := by
    intro t
    unfold under absolute Xml.kids
    rw [htag, if_pos rfl, ← hkids]
    simp
  have u1 : under doc "dimension" = xd := by
    rw [hunder, List.filter_append, List.filter_append, kids_same td, kids_other ta (by decide), kids_other tv (by decide)]
    simp
  have u2 : under doc "attribute" = xa := by
    rw [hunder, List.filter_append, List.filter_append, kids_same ta, kids_other td (by decide), kids_other tv (by decide)]
    simp
  have u3 : under doc "variable" = xv := by
    rw [hunder, List.filter_append, List.filter_append, kids_same tv, kids_other td (by decide), kids_other ta (by decide)]
    simp
  have u4 : under doc "remove" = [] := by
    rw [hunder, List.filter_append, List.filter_append, kids_other td (by decide), kids_other ta (by decide), kids_other tv (by decide)]
    simp
  have hin : ∀ t, inVariables doc t = xv.flatMap fun x => (x.kids t).map fun e => (x, e) := by
    intro t
    unfold inVariables
    rw [u3]
  have i1 : inVariables doc "remove" = [] := by
    rw [hin, List.flatMap_eq_nil_iff]
    intro x hx
    obtain ⟨k, h⟩ := nv x hx
    rw [h.remove]
    rfl
  have i2 : inVariables doc "spatial_vector" = [] := by
    rw [hin, List.flatMap_eq_nil_iff]
    intro x hx
    obtain ⟨k, h⟩ := nv x hx
    rw [h.vectors]
    rfl
  have hk : List.Forall₂ (Node env) xv (ps.map (·.1)) := by
    rw [List.forall₂_map_right_iff]
    exact hv.imp fun x p h => h.node
  have s1 : initRemove doc (⟨⟨fun _ => none, [], [], false, cs⟩, [], [], []⟩ : St D V CS) = .ok ⟨⟨fun _ => none, [], [], false, cs⟩, [], [], []⟩ := by
    unfold initRemove
    rw [u4, i1]
    rfl
  have s2 : initDims env doc (⟨⟨fun _ => none, [], [], false, cs⟩, [], [], []⟩ : St D V CS) = .ok ⟨⟨fun _ => none, [], ds.map off, false, cs⟩, [], [], []⟩ := by
    unfold initDims renameDims
    rw [u1, filter_none fun x hx => by obtain ⟨d, -, h⟩ := forall_left hd x hx; exact h.org,
      List.filter_eq_self.2 fun x hx => by obtain ⟨d, -, h⟩ := forall_left hd x hx; exact h.length]
    exact dims_fold env [] hd (by simpa using hdn)
  have s3 : initUnlimited env doc (⟨⟨fun _ => none, [], ds.map off, false, cs⟩, [], [], []⟩ : St D V CS) = .ok ⟨⟨fun _ => none, [], ds, false, cs⟩, [], [], []⟩ := by
    unfold initUnlimited
    rw [u1]
    exact unlimited_fold env [] hd (by simpa using hdn)
  have s4 : initShapes env doc (⟨⟨fun _ => none, [], ds, false, cs⟩, [], [], []⟩ : St D V CS) = .ok ⟨⟨fun _ => none, [], ds, false, cs⟩, [], [], []⟩ := by
    unfold initShapes
    rw [u3]
    exact shapes_fold env nv
  have hvn' : ((ps.map (·.1)).map (·.1)).Nodup := by rw [List.map_map]; exact hvn
  have s5 : initNames env doc (⟨⟨fun _ => none, [], ds, false, cs⟩, [], [], []⟩ : St D V CS) = .ok ⟨⟨fun _ => none, (ps.map (·.1)).map fresh, ds, false, cs⟩, [], [], []⟩ := by
    unfold initNames renameVars
    rw [u3, filter_none fun x hx => by obtain ⟨k, h⟩ := nv x hx; exact h.org,
      List.filter_eq_self.2 fun x hx => by obtain ⟨k, h⟩ := nv x hx; rw [h.org]; rfl]
    exact add_fold env [] hk (by simpa using hvn')
  obtain ⟨ty, s6⟩ : ∃ ty, initTypes env doc (⟨⟨fun _ => none, (ps.map (·.1)).map fresh, ds, false, cs⟩, [], [], []⟩ : St D V CS) =
      .ok ⟨⟨fun _ => none, (ps.map (·.1)).map typed, ds, false, cs⟩, [], [], ty⟩ := by
    unfold initTypes
    rw [u3, List.filter_eq_self.2 fun x hx => by obtain ⟨k, h⟩ := nv x hx; exact h.hasType]
    exact types_fold env htag [] [] hk (by simpa using hvn')
  have s7 : initValues env doc (⟨⟨fun _ => none, (ps.map (·.1)).map typed, ds, false, cs⟩, [], [], ty⟩ : St D V CS) =
      .ok ⟨⟨fun _ => none, ps.map full, ds, false, cs⟩, [], [], ty⟩ := by
    unfold initValues
    rw [hin, List.map_map]
    exact values_fold env [] hv (by simpa using hvn)
  have s8 : initVectors doc (⟨⟨fun _ => none, ps.map full, ds, false, cs⟩, [], [], ty⟩ : St D V CS) = .ok ⟨⟨fun _ => none, ps.map full, ds, false, cs⟩, [], [], ty⟩ := by
    unfold initVectors
    rw [i2]
    rfl
  have s9 : initAttrNames doc (⟨⟨fun _ => none, ps.map full, ds, false, cs⟩, [], [], ty⟩ : St D V CS) = .ok ⟨⟨fun _ => none, ps.map full, ds, false, cs⟩, [], [], ty⟩ := by
    unfold initAttrNames
    rw [u2, filter_none fun x hx => by obtain ⟨a, -, h⟩ := forall_left ha x hx; exact h.org]
    have : ((inVariables doc "attribute").filter fun p => p.1.has "name" && p.2.has "orgName") = [] := by
      rw [List.filter_eq_nil_iff]
      intro p hp
      rw [hin, List.mem_flatMap] at hp
      obtain ⟨x, hx, hp⟩ := hp
      obtain ⟨y, hy, rfl⟩ := List.mem_map.1 hp
      obtain ⟨n, -, -, h⟩ := forall_left hva x hx
      obtain ⟨a, -, h⟩ := forall_left h y hy
      rw [h.org]
      simp
    rw [this]
    rfl
  obtain ⟨at1, g1, g2, g3⟩ := attrs_fold env globalNS (⟨⟨fun _ => none, ps.map full, ds, false, cs⟩, [], [], ty⟩ : St D V CS) ha rfl (Or.inl rfl) (by simpa [getAttributes] using hgn)
  have hnames : ∀ q : Known D × Option D, (full q).name = q.1.1 := by
    intro q
    unfold full
    split <;> rfl
  obtain ⟨at2, k1, k2, k3⟩ := varAttrs_fold env orig hon (⟨⟨at1, ps.map full, ds, false, cs⟩, [], [], ty⟩ : St D V CS) hva rfl
    (fun n hn => by
      rw [hasVariable_iff]
      dsimp only
      rw [List.map_map]
      obtain ⟨p, hp, rfl⟩ := List.mem_map.1 hn
      exact List.mem_map.2 ⟨p, hp, hnames p⟩)
    (fun n hn => by
      unfold getAttributes
      dsimp only
      rw [g3 n fun e => hglob (e ▸ hn)]
      rfl) hvn
  refine ⟨⟨⟨at2, ps.map full, ds, false, cs⟩, [], [], ty⟩, ?_, rfl, rfl, ?_, k2, ?_⟩
  · unfold init
    rw [if_neg (by unfold absolute; rw [htag, if_pos rfl]; simp)]
    refine Res.bind_eq_ok.2 ⟨_, s1, Res.bind_eq_ok.2 ⟨_, s2, Res.bind_eq_ok.2 ⟨_, s3, Res.bind_eq_ok.2 ⟨_, s4, Res.bind_eq_ok.2 ⟨_, s5, Res.bind_eq_ok.2 ⟨_, s6,
      Res.bind_eq_ok.2 ⟨_, s7, Res.bind_eq_ok.2 ⟨_, s8, Res.bind_eq_ok.2 ⟨_, s9, ?_⟩⟩⟩⟩⟩⟩⟩⟩⟩
    unfold initAttrs
    rw [u2, hin]
    exact Res.bind_eq_ok.2 ⟨_, g1, k1⟩
  · unfold getAttributes
    dsimp only
    rw [k3 _ hglob]
    dsimp only
    rw [g2]
    rfl
  · intro n h1 h2
    dsimp only
    rw [k3 n h2]
    dsimp only
    rw [g3 n h1]

end Fimex.NcmlWrite
