import Verif.Ncml.WriteNodes
import Mathlib.Tactic.NormNum
import Mathlib.Algebra.Order.Field.Rat

/-! # C126: NcML documents written and read again -/

namespace Fimex.NcmlWrite

open Cdm hiding lengthOf
open Tables NcmlDoc
open Fimex.Text (join)

variable {F CS : Type}

/-! ## Lemmas -/

theorem blank_type (t : DataType) : (blank t : Val F).type = t := by cases t <;> rfl

theorem kids_attrs {env : Env (Val F) (Val F)} {xs ys : List Xml} {as : List (Attr (Val F))} (h : List.Forall₂ (AttrNode env) xs as) (hy : ∀ y ∈ ys, y.tag = "values")
    {p : List (String × String)} {t : String} :
    (Xml.node "variable" p t (xs ++ ys)).kids "attribute" = xs ∧ (Xml.node "variable" p t (xs ++ ys)).kids "values" = ys ∧
      (Xml.node "variable" p t (xs ++ ys)).kids "remove" = [] ∧ (Xml.node "variable" p t (xs ++ ys)).kids "spatial_vector" = [] := by
  have hx : ∀ x ∈ xs, x.tag = "attribute" := fun x hx => by obtain ⟨a, -, h⟩ := forall_left h x hx; exact h.tag
  unfold Xml.kids Xml.children
  simp only [List.filter_append]
  refine ⟨?_, ?_, ?_, ?_⟩
  · rw [kids_same hx, kids_other hy (by decide)]; simp
  · rw [kids_same hy, kids_other hx (by decide)]; simp
  · rw [kids_other hx (by decide), kids_other hy (by decide)]; simp
  · rw [kids_other hx (by decide), kids_other hy (by decide)]; simp

/-- The element of a variable as the reader gets it. -/
theorem var_node (N : Numbers F) {progression : DataType → Nat → String → String → Res (Val F)} {read : String → Res (Val F)} {S : Source F} {withData : Bool}
    {c : CDM (Payload (Val F)) (Val F) CS} (cs : CS) (hn : (c.dims.map (·.name)).Nodup) {v : Var (Payload (Val F))} (hv : Described v) (ha : ∀ a ∈ getAttributes c v.name, Kept N a)
    {d : Val F} (hd : withData = true → ∃ lens parts, Sizes c v.shape lens ∧ Delivers S c v parts ∧ Values N v.payload.dtype lens.prod parts d) :
    ∃ r x, rawVar N S withData c v = .ok r ∧ decode r = some x ∧
      ValuesNode (readEnv N progression read) c.dims (fun _ => none) cs x (knownOf v, if withData then some d else none) ∧
      x.prop "name" = v.name ∧ List.Forall₂ (AttrNode (readEnv N progression read)) (x.kids "attribute") (getAttributes c v.name) := by
  obtain ⟨rs, xs, h1, h2, h3⟩ := attrs_node N (progression := progression) (read := read) ha
  obtain ⟨t1, t2, t3, t4, t5⟩ := type_facts hv.type
  -- the values
  have hvals : ∃ vr vy, (if withData ∧ v.payload.dtype ≠ .nat then (rawValues N S c v).bind fun x => .ok [x] else .ok []) = .ok vr ∧
      List.Forall₂ (fun r x => decode r = some x) vr vy ∧ (∀ y ∈ vy, y.tag = "values") ∧ (withData = false → vy = []) ∧
      (withData = true → d.type = v.payload.dtype ∧ ∃ y lens, vy = [y] ∧ Sizes c v.shape lens ∧
        (readEnv N progression read).fill v.payload.dtype lens (y.prop "start") (y.prop "increment") y.content (y.prop "separator") = .ok d) := by
    cases hw : withData with
    | false => exact ⟨[], [], by simp, .nil, by simp, by simp, by simp⟩
    | true =>
      obtain ⟨lens, parts, s1, s2, s3⟩ := hd hw
      obtain ⟨r, y, e1, e2, e3, e4, e5⟩ := values_node N (progression := progression) (read := read) hn s1 s2 s3
      refine ⟨[r], [y], ?_, .cons e2 .nil, by simpa using e3, by simp, fun _ => ⟨e4, y, lens, rfl, s1, e5⟩⟩
      rw [if_pos ⟨rfl, t4⟩, e1]
      rfl
  obtain ⟨vr, vy, v1, v2, v3, v4, v5⟩ := hvals
  have hr : rawVar N S withData c v = .ok (.node "variable" ([("name", escapeXml v.name.toList)] ++ rawShape v.shape ++ [("type", (cdm2ncml v.payload.dtype).name)]) [] (rs ++ vr)) := by
    unfold rawVar
    have e : ∀ f : List Raw → Res Raw, (Res.ok rs).bind f = f rs := fun _ => rfl
    rw [h1, e, v1, t1]
    rfl
  -- the attributes of the element
  have hp : ∃ ps, decodeProps ([("name", escapeXml v.name.toList)] ++ rawShape v.shape ++ [("type", (cdm2ncml v.payload.dtype).name)]) = some ps ∧
      ∀ t l, (Xml.node "variable" ps t l).prop "name" = v.name ∧ (Xml.node "variable" ps t l).has "name" = true ∧ (Xml.node "variable" ps t l).has "orgName" = false ∧
        (Xml.node "variable" ps t l).prop "orgName" = "" ∧ (readEnv N progression read).shape ((Xml.node "variable" ps t l).prop "shape") = .ok v.shape ∧
        (Xml.node "variable" ps t l).has "type" = true ∧ (Xml.node "variable" ps t l).prop "type" = String.ofList (cdm2ncml v.payload.dtype).name := by
    by_cases hs : v.shape = []
    · have e : rawShape v.shape = [] := by unfold rawShape; rw [if_pos hs]
      rw [e]
      refine ⟨_, props_cons (plain_attr hv.plain) (props_cons (name_bare _) props_nil), fun t l => ⟨?_, ?_, ?_, ?_, ?_, ?_, ?_⟩⟩
      · simp [Xml.prop, Xml.props]
      · simp [Xml.has, Xml.props]
      · simp [Xml.has, Xml.props]
      · simp [Xml.prop, Xml.props]
      · rw [hs]
        have : ∀ p : String, (Xml.node "variable" [("name", p), ("type", String.ofList (cdm2ncml v.payload.dtype).name)] t l).prop "shape" = "" := fun p => by simp [Xml.prop, Xml.props]
        rw [this]
        rfl
      · simp [Xml.has, Xml.props]
      · simp [Xml.prop, Xml.props]
    · have e : rawShape v.shape = [("shape", join (v.shape.reverse.map String.toList) [' '])] := by unfold rawShape; rw [if_neg hs]
      have hw : ∀ n ∈ v.shape.reverse, Word n.toList := fun n hn => hv.shape n (List.mem_reverse.1 hn)
      rw [e]
      refine ⟨_, props_cons (plain_attr hv.plain) (props_cons (shape_words hw) (props_cons (name_bare _) props_nil)), fun t l => ⟨?_, ?_, ?_, ?_, ?_, ?_, ?_⟩⟩
      · simp [Xml.prop, Xml.props]
      · simp [Xml.has, Xml.props]
      · simp [Xml.has, Xml.props]
      · simp [Xml.prop, Xml.props]
      · have : ∀ p : String, (Xml.node "variable" [("name", p), ("shape", String.ofList (join (v.shape.reverse.map String.toList) [' '])),
            ("type", String.ofList (cdm2ncml v.payload.dtype).name)] t l).prop "shape" = String.ofList (join (v.shape.reverse.map String.toList) [' ']) :=
          fun p => by simp [Xml.prop, Xml.props]
        rw [this]
        show (ended (Ncml.shapeFromAtt _ (String.ofList _).toList)).bind _ = _
        rw [String.toList_ofList, Ncml.C71_shape_reversed _ _ _ (Nat.lt_succ_self _)]
        · show Res.ok _ = _
          congr 1
          rw [← List.map_reverse, List.reverse_reverse, List.map_map]
          conv_rhs => rw [← List.map_id v.shape]
          exact List.map_congr_left fun n _ => String.ofList_toList
        · intro s hs'
          obtain ⟨n, hn', rfl⟩ := List.mem_map.1 hs'
          obtain ⟨w1, w2, w3⟩ := hw n hn'
          refine ⟨w1, fun c hc => ?_⟩
          have := (w2.1 c hc).2.1
          simp
          exact ⟨fun e => w3 (e ▸ hc), this⟩
      · simp [Xml.has, Xml.props]
      · simp [Xml.prop, Xml.props]
  obtain ⟨ps, p1, p2⟩ := hp
  have hall : decodeAll (rs ++ vr) = some (xs ++ vy) := all_forall (List.rel_append h2 v2)
  obtain ⟨k1, k2, k3, k4⟩ := kids_attrs h3 v3 (p := ps) (t := String.ofList [])
  obtain ⟨q1, q2, q3, q4, q5, q6, q7⟩ := p2 (String.ofList []) (xs ++ vy)
  refine ⟨_, _, hr, decode_node p1 text_nil hall, ⟨?_, ?_, ?_⟩, q1, by rw [k1]; exact h3⟩
  · exact ⟨rfl, q1, q2, hv.nonempty, q3, q4, q5, q6, by rw [q7]; exact t2, by rw [q7, String.toList_ofList]; exact t5, by rw [q7, String.toList_ofList]; exact t3, t4, rfl,
      blank_type _, k3, k4⟩
  · intro hnone
    rw [k2]
    apply v4
    cases hw : withData with
    | false => rfl
    | true => rw [hw] at hnone; simp at hnone
  · intro e he
    have hw : withData = true := by
      cases hw : withData with
      | true => rfl
      | false => rw [hw] at he; simp at he
    rw [hw] at he
    have : e = d := by simpa using he.symm
    subst this
    obtain ⟨w1, y, lens, w2, w3, w4⟩ := v5 hw
    exact ⟨w1, y, by rw [k2, w2], lens, fun vs => sizes_lengths hn w3, w4⟩

theorem vars_node (N : Numbers F) {progression : DataType → Nat → String → String → Res (Val F)} {read : String → Res (Val F)} {S : Source F} {withData : Bool}
    {c : CDM (Payload (Val F)) (Val F) CS} (cs : CS) (hn : (c.dims.map (·.name)).Nodup) {data : String → Val F} : ∀ {vs : List (Var (Payload (Val F)))}, (∀ v ∈ vs, Described v) →
    (∀ v ∈ vs, ∀ a ∈ getAttributes c v.name, Kept N a) →
    (withData = true → ∀ v ∈ vs, ∃ lens parts, Sizes c v.shape lens ∧ Delivers S c v parts ∧ Values N v.payload.dtype lens.prod parts (data v.name)) →
    ∃ rs xs, rawVars N S withData c vs = .ok rs ∧ List.Forall₂ (fun r x => decode r = some x) rs xs ∧
      List.Forall₂ (ValuesNode (readEnv N progression read) c.dims (fun _ => none) cs) xs (vs.map fun v => (knownOf v, if withData then some (data v.name) else none)) ∧
      List.Forall₂ (fun x n => x.prop "name" = n ∧ List.Forall₂ (AttrNode (readEnv N progression read)) (x.kids "attribute") (getAttributes c n)) xs (vs.map (·.name))
  | [], _, _, _ => ⟨[], [], rfl, .nil, .nil, .nil⟩
  | v :: vs, h1, h2, h3 => by
    obtain ⟨r, x, a1, a2, a3, a4, a5⟩ := var_node N (progression := progression) (read := read) (S := S) (withData := withData) cs hn (h1 v (by simp)) (h2 v (by simp)) (d := data v.name)
      fun hw => h3 hw v (by simp)
    obtain ⟨rs, xs, b1, b2, b3, b4⟩ := vars_node N (progression := progression) (read := read) (S := S) (withData := withData) cs hn (data := data) (vs := vs)
      (fun w hw => h1 w (List.mem_cons_of_mem _ hw)) (fun w hw => h2 w (List.mem_cons_of_mem _ hw)) fun hd w hw => h3 hd w (List.mem_cons_of_mem _ hw)
    exact ⟨r :: rs, x :: xs, by rw [rawVars, a1, b1]; rfl, .cons a2 b2, .cons a3 b3, .cons ⟨a4, a5⟩ b4⟩

theorem dims_node (N : Numbers F) {progression : DataType → Nat → String → String → Res (Val F)} {read : String → Res (Val F)} : ∀ {ds : List Dim},
    (∀ d ∈ ds, Plain d.name.toList ∧ N.int (toString d.length) = .ok (d.length : Int) ∧ d.length < two64) →
    ∃ xs, List.Forall₂ (fun r x => decode r = some x) (ds.map rawDim) xs ∧ List.Forall₂ (DimNode (readEnv N progression read)) xs ds
  | [], _ => ⟨[], .nil, .nil⟩
  | d :: ds, h => by
    obtain ⟨h1, h2, h3⟩ := h d (by simp)
    obtain ⟨x, a1, a2⟩ := dim_node N (progression := progression) (read := read) h1 h2 h3
    obtain ⟨xs, b1, b2⟩ := dims_node N (progression := progression) (read := read) fun e he => h e (List.mem_cons_of_mem _ he)
    exact ⟨x :: xs, .cons a1 b1, .cons a2 b2⟩

/-! ## Theorems -/

/-- C126: a dataset that is written as NcML document is read back from it.  Names and texts hold no tabs and line ends and only characters of XML, names in shapes are words without
space, markup and quotes, types are signed numbers or texts, attributes have values, printed numbers parse as the numbers they were, there are no vectors.  Then dimensions, variables and attributes are those written; a
variable has the values that its source delivered, if they are written. -/
theorem C126_read_back (N : Numbers F) (progression : DataType → Nat → String → String → Res (Val F)) (read : String → Res (Val F)) (S : Source F) (withData : Bool)
    (c : CDM (Payload (Val F)) (Val F) CS) (id : String) (cs : CS) (data : String → Val F) (hid : id ≠ "") (hinv : Inv c)
    (hint : ∀ n : Nat, n < 2 ^ 31 → N.int (toString n) = .ok (n : Int))
    (hdims : ∀ d ∈ c.dims, Plain d.name.toList ∧ d.length < 2 ^ 31)
    (hglob : ∀ a ∈ getAttributes c globalNS, Kept N a)
    (hvars : ∀ v ∈ c.vars, Described v ∧ ∀ a ∈ getAttributes c v.name, Kept N a)
    (hdata : withData = true → ∀ v ∈ c.vars, ∃ lens parts, Sizes c v.shape lens ∧ Delivers S c v parts ∧ Values N v.payload.dtype lens.prod parts (data v.name)) :
    ∃ r s, write N S withData c = .ok r ∧ readBack N progression read id cs r = .ok s ∧
      s.cdm.dims = c.dims ∧ (∀ n, getAttributes s.cdm n = getAttributes c n) ∧
      s.cdm.vars = c.vars.map fun v => { v with payload := { v.payload with data := if withData then some (data v.name) else unread v.payload.dtype } } := by
  obtain ⟨xd, d1, d2⟩ := dims_node N (progression := progression) (read := read) (ds := c.dims) fun d hd =>
    ⟨(hdims d hd).1, hint _ (hdims d hd).2, lt_trans (hdims d hd).2 (by decide)⟩
  obtain ⟨ra, xa, a1, a2, a3⟩ := attrs_node N (progression := progression) (read := read) hglob
  obtain ⟨rv, xv, v1, v2, v3, v4⟩ := vars_node N (progression := progression) (read := read) (S := S) (withData := withData) cs hinv.dims (data := data) (vs := c.vars)
    (fun v hv => (hvars v hv).1) (fun v hv => (hvars v hv).2) hdata
  have hw : write N S withData c = .ok (.node "netcdf" [] [] (c.dims.map rawDim ++ ra ++ rv)) := by
    unfold write
    rw [a1, v1]
    rfl
  have hdec : decode (.node "netcdf" [] [] (c.dims.map rawDim ++ ra ++ rv)) = some (.node "netcdf" [] (String.ofList []) (xd ++ xa ++ xv)) :=
    decode_node props_nil text_nil (all_forall (List.rel_append (List.rel_append d1 a2) v2))
  have hmap : (c.vars.map fun v => ((knownOf v, if withData then some (data v.name) else none) : Known (Val F) × Option (Val F))).map (·.1.1) = c.vars.map (·.name) := by
    rw [List.map_map]; rfl
  have hnames : ∀ n, ((getAttributes c n).map (·.name)).Nodup := by
    intro n
    unfold getAttributes
    cases h : c.attrs n with
    | none => simp
    | some l => exact hinv.attrNames n l h
  have hng : globalNS ∉ c.vars.map (·.name) := by
    intro h
    obtain ⟨v, hv, e⟩ := List.mem_map.1 h
    exact (hvars v hv).1.notGlobal e
  obtain ⟨s, s1, s2, s3, s4, s5, s6⟩ := read_added (readEnv N progression read) cs (getAttributes c) d2 a3 v3 (by rw [hmap]; exact v4) hinv.dims (by rw [hmap]; exact hinv.vars)
    (hnames globalNS) hnames (by rw [hmap]; exact hng) (props := []) (content := String.ofList []) (blank := empty cs)
  rw [hmap] at s5 s6
  refine ⟨_, s, hw, ?_, s2, ?_, ?_⟩
  · unfold readBack
    rw [hdec]
    show construct _ _ _ _ _ = _
    unfold construct
    dsimp only
    rw [if_neg hid, if_neg (by simp [absolute, Xml.tag])]
    exact s1
  · intro n
    by_cases h1 : n = globalNS
    · rw [h1, s4]
    by_cases h2 : n ∈ c.vars.map (·.name)
    · exact s5 n h2
    · unfold getAttributes
      rw [s6 n h1 h2]
      cases h3 : c.attrs n with
      | none => rfl
      | some l =>
        rcases hinv.owners n (by rw [h3]; simp) with h | h
        · exact absurd h h1
        · exact absurd ((hasVariable_iff c n).1 h) h2
  · rw [s3, List.map_map]
    apply List.map_congr_left
    intro v hv
    show full (knownOf v, _) = _
    rw [full_known (hvars v hv).1]
    cases withData <;> rfl

/-- C126: texts of attributes are read as they have been written, but for tabs and line ends, which become spaces: a text of characters of XML comes back exactly if it has none. -/
theorem C126_texts (s : List Char) (hs : ∀ c ∈ s, isXmlChar c = true) : decodeAttr (escapeXml s) = some s ↔ ∀ c ∈ s, c ≠ '\t' ∧ c ≠ '\n' ∧ c ≠ '\r' := by
  constructor
  · intro h c hc
    rw [decode_escaped s hs, Option.some_inj] at h
    rw [← h] at hc
    obtain ⟨d, -, rfl⟩ := List.mem_map.1 hc
    unfold toSpace
    split
    · decide
    · rename_i hd
      simpa only [not_or] using hd
  · intro h
    exact plain_attr fun c hc => ⟨hs c hc, h c hc⟩

theorem decode_stop {stop : Char → Bool} {f : Char → Char} {c : Char} (hc : stop c = true) (h1 : c ≠ '&') (h2 : c ≠ ';') (h3 : ∀ n, c ∈ n → entity n = none) : ∀ (s : List Char) (o : Option (List Char)),
    (c ∈ s ∨ ∃ n, o = some n ∧ c ∈ n) → decodeLoop stop f o s = none
  | [], none, h => by rcases h with h | ⟨n, h, -⟩ <;> cases h
  | [], some n, _ => rfl
  | d :: s, none, h => by
    have h : c ∈ d :: s := by
      rcases h with h | ⟨n, h, -⟩
      · exact h
      · cases h
    rw [decodeLoop]
    split
    · rename_i e
      subst e
      refine decode_stop hc h1 h2 h3 s _ (Or.inl ?_)
      rcases List.mem_cons.1 h with e | h
      · exact absurd e h1
      · exact h
    · split
      · rfl
      · rename_i hd
        rw [decode_stop hc h1 h2 h3 s none (Or.inl ?_)]
        · rfl
        rcases List.mem_cons.1 h with e | h
        · subst e; exact absurd (Or.inl hc) hd
        · exact h
  | d :: s, some n, h => by
    rw [decodeLoop]
    split
    · rename_i e
      subst e
      by_cases hn : c ∈ n
      · rw [h3 n hn]
      · have : c ∈ s := by
          rcases h with h | ⟨m, e, h⟩
          · rcases List.mem_cons.1 h with e | h
            · exact absurd e h2
            · exact h
          · cases e; exact absurd h hn
        cases entity n with
        | none => rfl
        | some e =>
          show Option.map _ (decodeLoop stop f none s) = none
          rw [decode_stop hc h1 h2 h3 s none (Or.inl this)]
          rfl
    · refine decode_stop hc h1 h2 h3 s _ ?_
      rcases h with h | ⟨m, e, h⟩
      · rcases List.mem_cons.1 h with e | h
        · exact Or.inr ⟨_, rfl, by simp [e]⟩
        · exact Or.inl h
      · cases e; exact Or.inr ⟨_, rfl, by simp [h]⟩

/-- C126: the text of an element `values` is not escaped: with the character `<` among the values the document is not well-formed. -/
theorem C126_markup (content : List Char) (h : '<' ∈ content) (tag : String) (props : List (String × List Char)) (children : List Raw) : decode (.node tag props content children) = none := by
  have h3 : ∀ n : List Char, '<' ∈ n → entity n = none := by
    intro n hn
    unfold entity
    have : ∀ m : List Char, '<' ∉ m → n ≠ m := fun m hm e => hm (e ▸ hn)
    rw [if_neg (this _ (by decide)), if_neg (this _ (by decide)), if_neg (this _ (by decide)), if_neg (this _ (by decide)), if_neg (this _ (by decide))]
  have hm : '<' ∈ lineEnds content := by
    clear h3
    induction content using lineEnds.induct with
    | case1 => cases h
    | case2 s ih => rw [lineEnds]; simp at h; exact List.mem_cons_of_mem _ (ih h)
    | case3 s hs ih => rw [lineEnds]; simp at h; exact List.mem_cons_of_mem _ (ih h)
                       intro t e; exact hs t e
    | case4 c s hc hc' ih =>
      rw [lineEnds]
      · rcases List.mem_cons.1 h with e | h
        · exact e ▸ List.mem_cons_self
        · exact List.mem_cons_of_mem _ (ih h)
      all_goals assumption
  have : decodeText content = none := by
    unfold decodeText
    split
    · rfl
    · exact decode_stop (c := '<') (by decide) (by decide) (by decide) h3 _ _ (Or.inl hm)
  rw [decode, this]
  cases decodeProps props <;> rfl

/-! ## Examples -/

/-- Numbers are natural numbers in decimal digits. -/
def digits : Numbers Nat where
  print := fun _ n => (toString n).toList
  parse := fun _ s => if s ≠ [] ∧ s.all Char.isDigit then .ok (s.foldl (fun n c => 10 * n + (c.toNat - 48)) 0) else .throws
  int := fun s => if s.toList ≠ [] ∧ s.toList.all Char.isDigit then .ok (s.toList.foldl (fun n c => 10 * n + (c.toNat - 48)) 0 : Nat) else .throws

theorem digits_fold (n : Nat) : (Nat.toDigits 10 n).foldl (fun n c => 10 * n + (c.toNat - 48)) 0 = n := by
  induction n using Nat.strongRecOn with
  | _ n ih =>
    by_cases h : n < 10
    · rw [Nat.toDigits_of_lt_base h]
      have : ∀ m < 10, [Nat.digitChar m].foldl (fun n c => 10 * n + (c.toNat - 48)) 0 = m := by decide
      exact this n h
    · have e : Nat.toDigits 10 n = Nat.toDigits 10 (n / 10) ++ [Nat.digitChar (n % 10)] := by
        rw [Nat.toDigits_of_base_le (by decide) (by omega)]
      rw [e, List.foldl_append, ih (n / 10) (by omega)]
      have : ∀ m < 10, (Nat.digitChar m).toNat - 48 = m := by decide
      rw [List.foldl_cons, List.foldl_nil, this _ (Nat.mod_lt _ (by decide))]
      omega

theorem repr_digits (n : Nat) : (toString n).toList = Nat.toDigits 10 n := by simp [toString, Nat.repr]

theorem digits_ok (n : Nat) : (toString n).toList ≠ [] ∧ (toString n).toList.all Char.isDigit = true := by
  rw [repr_digits]
  refine ⟨Nat.toDigits_ne_nil, List.all_eq_true.2 fun c hc => Nat.isDigit_of_mem_toDigits (b := 10) (by decide) (by decide) hc⟩

theorem digits_exact (t : DataType) (n : Nat) : Exact digits t n := by
  refine ⟨?_, (digits_ok n).1, toDigits_num n⟩
  rw [show digits.print t n = (toString n).toList from rfl]
  show (if _ then _ else _) = _
  rw [if_pos (digits_ok n), repr_digits, digits_fold]

theorem digits_int (n : Nat) : digits.int (toString n) = .ok (n : Int) := by
  show (if _ then _ else _) = _
  rw [if_pos (digits_ok n), repr_digits, digits_fold]

/-- A source of values. -/
def source (all : String → Option (Val Nat)) (slice : String → Nat → Option (Val Nat)) : Source Nat := ⟨fun n => .ok (all n), fun n i => .ok (slice n i), fun _ => .ok "0".toList⟩

def noProgression : DataType → Nat → String → String → Res (Val Nat) := fun _ _ _ _ => .throws

def variableOf (n : String) (shape : List String) (t : DataType) : Var (Payload (Val Nat)) := ⟨n, shape, ⟨t, none, "", .none⟩⟩

/-- A dataset with an unlimited dimension of length 2. -/
def sample : CDM (Payload (Val Nat)) (Val Nat) Unit :=
  ⟨fun n => if n = globalNS then some [⟨"title", .text "a < b & 'c'".toList⟩]
    else if n = "t2m" then some [⟨"units", .text "K".toList⟩, ⟨"flags", .strings ["no rain".toList, [], "x|y".toList]⟩, ⟨"range", .nums .short [1, 250]⟩] else none,
    [variableOf "t2m" ["x", "time"] .double, variableOf "n" [] .int64, variableOf "station" ["x"] .strings],
    [⟨"x", 3, false⟩, ⟨"time", 2, true⟩], false, ()⟩

def samples : Source Nat :=
  source (fun n => if n = "n" then some (.nums .int64 [7]) else if n = "station" then some (.strings ["Oslo".toList, [], "Bergen, Flesland".toList]) else none)
    fun n i => if n = "t2m" then (if i = 0 then some (.nums .double [1, 2, 3]) else some (.nums .double [4, 5, 6])) else none

/-- Name, shape, type and data of a variable. -/
abbrev Content := String × List String × DataType × Option (Val Nat)

instance : DecidableEq (DataType × Option (Val Nat)) := inferInstance

instance : DecidableEq Content := instDecidableEqProd

/-- The result of writing and reading. -/
def again (S : Source Nat) (withData : Bool) (c : CDM (Payload (Val Nat)) (Val Nat) Unit) : Res (St (Val Nat) (Val Nat) Unit) :=
  (write digits S withData c).bind fun r => readBack digits noProgression (fun _ => .throws) "file" () r

/-- What the variables are. -/
def contents (r : Res (St (Val Nat) (Val Nat) Unit)) : Option (List Content) :=
  match r with
  | .ok s => some (s.cdm.vars.map fun v => (v.name, v.shape, v.payload.dtype, v.payload.data))
  | _ => none

/-- The attributes of a variable. -/
def attributes (r : Res (St (Val Nat) (Val Nat) Unit)) (n : String) : Option (List (String × Val Nat)) :=
  match r with
  | .ok s => some ((getAttributes s.cdm n).map fun a => (a.name, a.value))
  | _ => none

example : contents (again samples true sample) = some [("t2m", ["x", "time"], .double, some (.nums .double [1, 2, 3, 4, 5, 6])), ("n", [], .int64, some (.nums .int64 [7])),
    ("station", ["x"], .strings, some (.strings ["Oslo".toList, [], "Bergen, Flesland".toList]))] := by decide +kernel
example : attributes (again samples true sample) "t2m" =
    some [("units", .text "K".toList), ("flags", .strings ["no rain".toList, [], "x|y".toList]), ("range", .nums .short [1, 250])] := by decide +kernel
example : attributes (again samples true sample) globalNS = some [("title", .text "a < b & 'c'".toList)] := by decide +kernel

theorem plain_check {s : List Char} (h : (s.all fun c => isXmlChar c && c != '\t' && c != '\n' && c != '\r') = true) : Plain s := by
  intro c hc
  have := List.all_eq_true.1 h c hc
  simpa [and_assoc] using this

theorem word_check {s : List Char} (h : (s != [] && s.all fun c => isXmlChar c && c != '\t' && c != '\n' && c != '\r' && c != '&' && c != '<' && c != '"' && c != ' ') = true) : Word s := by
  simp only [Bool.and_eq_true, List.all_eq_true, bne_iff_ne] at h
  refine ⟨h.1, ⟨fun c hc => ?_, fun c hc => ?_⟩, fun hc => ?_⟩
  · have := h.2 c hc; tauto
  · have := h.2 c hc; tauto
  · have := h.2 ' ' hc; tauto

theorem apart_first {x : Char} {m s : List Char} (h : x ∉ s) : Apart (x :: m) s := by
  intro a b e
  rw [List.append_assoc] at e
  rcases List.append_eq_append_iff.1 e with ⟨u, h1, h2⟩ | ⟨u, h1, h2⟩
  · have := congrArg List.length h2
    simp only [List.length_append, List.length_cons] at this
    exact List.length_eq_zero_iff.1 (by omega)
  · cases u with
    | nil => simpa using h2
    | cons y u =>
      rw [List.cons_append, List.cons_append, List.cons_eq_cons] at h2
      exact absurd (by rw [h1, h2.1]; simp) h

theorem sample_vars {v : Var (Payload (Val Nat))} (h : v ∈ sample.vars) :
    v = variableOf "t2m" ["x", "time"] .double ∨ v = variableOf "n" [] .int64 ∨ v = variableOf "station" ["x"] .strings := by
  have e : sample.vars = [variableOf "t2m" ["x", "time"] .double, variableOf "n" [] .int64, variableOf "station" ["x"] .strings] := rfl
  rw [e] at h
  simpa only [List.mem_cons, List.not_mem_nil, or_false] using h

theorem sample_dims {d : Dim} (h : d ∈ sample.dims) : d = ⟨"x", 3, false⟩ ∨ d = ⟨"time", 2, true⟩ := by
  have e : sample.dims = [⟨"x", 3, false⟩, ⟨"time", 2, true⟩] := rfl
  rw [e] at h
  simpa only [List.mem_cons, List.not_mem_nil, or_false] using h

theorem sample_kept : (∀ a ∈ getAttributes sample globalNS, Kept digits a) ∧ ∀ v ∈ sample.vars, ∀ a ∈ getAttributes sample v.name, Kept digits a := by
  have h : ∀ a ∈ getAttributes sample "t2m", Kept digits a := by
    have e : getAttributes sample "t2m" = [⟨"units", .text "K".toList⟩, ⟨"flags", .strings ["no rain".toList, [], "x|y".toList]⟩, ⟨"range", .nums .short [1, 250]⟩] := rfl
    rw [e]
    intro a ha
    simp only [List.mem_cons, List.not_mem_nil, or_false] at ha
    rcases ha with rfl | rfl | rfl
    · exact ⟨plain_check (by decide +kernel), by decide +kernel, plain_check (by decide +kernel)⟩
    · refine ⟨plain_check (by decide +kernel), ?_, Or.inr ⟨⟨"no rain".toList, by simp, by decide +kernel⟩, [], [','], _, rfl, by simp, ?_⟩⟩
      · intro s hs
        simp only [List.mem_cons, List.not_mem_nil, or_false] at hs
        rcases hs with rfl | rfl | rfl <;> exact plain_check (by decide +kernel)
      · intro s hs
        simp only [List.mem_cons, List.not_mem_nil, or_false] at hs
        rcases hs with rfl | rfl | rfl <;> exact apart_first (by decide +kernel)
    · exact ⟨plain_check (by decide +kernel), by unfold Signed; decide, by simp, fun x _ => digits_exact _ x⟩
  refine ⟨?_, ?_⟩
  · have e : getAttributes sample globalNS = [⟨"title", .text "a < b & 'c'".toList⟩] := rfl
    rw [e]
    intro a ha
    rw [List.mem_singleton] at ha
    subst ha
    exact ⟨plain_check (by decide +kernel), by decide +kernel, plain_check (by decide +kernel)⟩
  · intro v hv
    have hv := sample_vars hv
    rcases hv with rfl | rfl | rfl
    · exact h
    · intro a ha; cases ha
    · intro a ha; cases ha

theorem sample_inv : Inv sample := by
  refine ⟨by decide +kernel, by decide +kernel, ?_, ?_⟩
  · intro n l h
    unfold sample at h
    dsimp only at h
    split at h
    · cases h; decide +kernel
    · split at h
      · cases h; decide +kernel
      · cases h
  · intro n h
    unfold sample at h
    dsimp only at h
    split at h
    · left; assumption
    · split at h
      · rename_i e; subst e; right; decide +kernel
      · exact absurd rfl h

theorem sample_described : ∀ v ∈ sample.vars, Described v := by
  intro v hv
  have hv := sample_vars hv
  rcases hv with rfl | rfl | rfl
  · refine ⟨by decide, by decide +kernel, plain_check (by decide +kernel), ?_, by unfold Signed; decide, rfl⟩
    intro n hn
    have hn : n = "x" ∨ n = "time" := by simpa [variableOf] using hn
    rcases hn with rfl | rfl <;> exact word_check (by decide +kernel)
  · refine ⟨by decide, by decide +kernel, plain_check (by decide +kernel), ?_, by unfold Signed; decide, rfl⟩
    intro n hn
    cases hn
  · refine ⟨by decide, by decide +kernel, plain_check (by decide +kernel), ?_, by unfold Signed; decide, rfl⟩
    intro n hn
    have hn : n = "x" := by simpa [variableOf] using hn
    subst hn
    exact word_check (by decide +kernel)

def sampleData (n : String) : Val Nat :=
  if n = "t2m" then .nums .double [1, 2, 3, 4, 5, 6] else if n = "n" then .nums .int64 [7] else .strings ["Oslo".toList, [], "Bergen, Flesland".toList]

theorem sample_values : ∀ v ∈ sample.vars, ∃ lens parts, Sizes sample v.shape lens ∧ Delivers samples sample v parts ∧ Values digits v.payload.dtype lens.prod parts (sampleData v.name) := by
  intro v hv
  have hv := sample_vars hv
  have hx : (⟨"x", 3, false⟩ : Dim) ∈ sample.dims := by decide +kernel
  have ht : (⟨"time", 2, true⟩ : Dim) ∈ sample.dims := by decide +kernel
  have hu : getUnlimitedDim sample = some ⟨"time", 2, true⟩ := rfl
  rcases hv with rfl | rfl | rfl
  · refine ⟨[3, 2], [.nums .double [1, 2, 3], .nums .double [4, 5, 6]], .cons ⟨_, hx, rfl, rfl⟩ (.cons ⟨_, ht, rfl, rfl⟩ .nil), Or.inr ⟨_, hu, by simp [variableOf], rfl, ?_⟩,
      Or.inl ⟨by unfold Signed; decide, [[1, 2, 3], [4, 5, 6]], rfl, by simp, by simp, fun x _ => digits_exact _ x, rfl, rfl⟩⟩
    intro i d h
    match i, h with
    | 0, h => simp at h; subst h; rfl
    | 1, h => simp at h; subst h; rfl
    | i + 2, h => simp at h
  · refine ⟨[], [.nums .int64 [7]], .nil, Or.inl ⟨by simp [variableOf], _, rfl, rfl⟩, Or.inl ⟨by unfold Signed; decide, [[7]], rfl, by simp, by simp, fun x _ => digits_exact _ x, rfl, rfl⟩⟩
  · refine ⟨[3], [.strings ["Oslo".toList, [], "Bergen, Flesland".toList]], .cons ⟨_, hx, rfl, rfl⟩ .nil, Or.inl ⟨?_, _, rfl, rfl⟩,
      Or.inr ⟨rfl, [["Oslo".toList, [], "Bergen, Flesland".toList]], rfl, by simp, by simp, rfl, rfl, by simp, ?_, ?_⟩⟩
    · rw [hu]
      intro u h
      cases h
      decide
    · intro s hs
      have hs : s = "Oslo".toList ∨ s = [] ∨ s = "Bergen, Flesland".toList := by simpa using hs
      rcases hs with rfl | rfl | rfl <;> exact ⟨apart_first (by decide +kernel), by decide +kernel⟩
    · intro a b e
      have := (contains_iff _ _).2 ⟨a, b, e⟩
      exact absurd this (by decide +kernel)

/-- The conditions of `C126_read_back` hold for a dataset with an unlimited dimension. -/
example : ∃ r s, write digits samples true sample = .ok r ∧ readBack digits noProgression (fun _ => .throws) "file" () r = .ok s ∧ s.cdm.dims = sample.dims :=
  have ⟨r, s, h1, h2, h3, _⟩ := C126_read_back digits noProgression (fun _ => .throws) samples true sample "file" () sampleData (by decide) sample_inv (fun n _ => digits_int n)
    (by
      intro d hd
      have hd := sample_dims hd
      rcases hd with rfl | rfl <;> exact ⟨plain_check (by decide +kernel), by decide⟩)
    sample_kept.1 (fun v hv => ⟨sample_described v hv, sample_kept.2 v hv⟩) fun _ => sample_values
  ⟨r, s, h1, h2, h3⟩

/-! ## What does not come back -/

/-- A dataset without attributes of variables. -/
def plainSet (glob : List (Attr (Val Nat))) (vars : List (Var (Payload (Val Nat)))) (dims : List Dim) : CDM (Payload (Val Nat)) (Val Nat) Unit :=
  ⟨fun n => if n = globalNS then some glob else none, vars, dims, false, ()⟩

def nothing : Source Nat := source (fun _ => none) fun _ _ => none

def raises (r : Res (St (Val Nat) (Val Nat) Unit)) : Bool :=
  match r with
  | .throws => true
  | _ => false

/-- C126: an attribute that is an empty text is lost, and line ends become spaces. -/
theorem C126_attributes_lost :
    attributes (again nothing false (plainSet [⟨"a", .text []⟩, ⟨"b", .text "1\n2".toList⟩] [] [])) globalNS = some [("b", .text "1 2".toList)] := by decide +kernel

/-- C126: texts of an attribute that are separated by space are also divided at commas, and empty ones are lost; a separator other than space keeps them. -/
theorem C126_commas :
    attributes (again nothing false (plainSet [⟨"a", .strings ["x,y".toList, "z".toList]⟩, ⟨"b", .strings ["x".toList, [], "z".toList]⟩, ⟨"c", .strings ["x y".toList, [], "z".toList]⟩] [] [])) globalNS =
      some [("a", .strings ["x".toList, "y".toList, "z".toList]), ("b", .strings ["x".toList, "z".toList]), ("c", .strings ["x y".toList, [], "z".toList])] := by decide +kernel

/-- C126: attributes that are numbers without sign come back as numbers with sign. -/
theorem C126_unsigned_attributes :
    attributes (again nothing false (plainSet [⟨"a", .nums .uint [3]⟩] [] [])) globalNS = some [("a", .nums .int [3])] := by decide +kernel

/-- C126: so do variables, with an attribute `_Unsigned` that they had not; a variable without type becomes an integer. -/
theorem C126_unsigned :
    contents (again nothing false (plainSet [] [variableOf "v" [] .uint, variableOf "w" [] .nat] [])) = some [("v", [], .int, some (.nums .int [])), ("w", [], .int, some (.nums .int []))] ∧
    attributes (again nothing false (plainSet [] [variableOf "v" [] .uint, variableOf "w" [] .nat] [])) "v" = some [("_Unsigned", .text "true".toList)] :=
  ⟨by decide +kernel, by decide +kernel⟩

/-- C126: a document with the values of a variable that has none, since its unlimited dimension has length 0, is refused by the reader. -/
theorem C126_no_values : raises (again nothing true (plainSet [] [variableOf "v" ["time"] .int] [⟨"time", 0, true⟩])) = true := by decide +kernel

/-- C126: so is one with a variable that is a text of several characters. -/
theorem C126_text_variable : raises (again (source (fun _ => some (.text "Oslo".toList)) fun _ _ => none) true (plainSet [] [variableOf "v" ["n"] .string] [⟨"n", 4, false⟩])) = true := by
  decide +kernel

/-- C126: values that end like the marker between values are divided in the wrong place, without error. -/
theorem C126_marker :
    contents (again (source (fun _ => some (.strings ["x---NEXT-NCML-STRING".toList, "y".toList])) fun _ _ => none) true (plainSet [] [variableOf "v" ["n"] .strings] [⟨"n", 2, false⟩])) =
      some [("v", ["n"], .strings, some (.strings ["x".toList, "NEXT-NCML-STRING---y".toList]))] := by decide +kernel

/-- C126: names of dimensions with space are taken apart in the shape, and those with quotes make a document that is not well-formed. -/
theorem C126_shapes :
    contents (again nothing false (plainSet [] [variableOf "v" ["a b"] .int] [⟨"a b", 2, false⟩])) = some [("v", ["b", "a"], .int, some (.nums .int []))] ∧
    raises (again nothing false (plainSet [] [variableOf "v" ["a\"b"] .int] [⟨"a\"b", 2, false⟩])) = true :=
  ⟨by decide +kernel, by decide +kernel⟩

/-- C126: data that a reader has not are written as fill values, one for each value of the slice. -/
theorem C126_fill :
    contents (again nothing true (plainSet [] [variableOf "v" ["x", "time"] .int] [⟨"x", 3, false⟩, ⟨"time", 2, true⟩])) =
      some [("v", ["x", "time"], .int, some (.nums .int [0, 0, 0, 0, 0, 0]))] := by decide +kernel

/-- C126: a vector is not written. -/
theorem C126_vectors : contents (again nothing false (plainSet [] [⟨"u", [], ⟨.int, none, "v", .x⟩⟩] [])) = contents (again nothing false (plainSet [] [variableOf "u" [] .int] [])) := by
  decide +kernel

/-- C126: numbers are printed with 16 digits, which tells not all numbers of double precision apart: the two below are neighbours with 53 binary digits, and no way to print
to the nearest decimal with 16 digits is read exactly for both. -/
theorem C126_digits (N : Numbers ℚ)
    (h : ∀ (x y : ℚ) (k : ℤ), 1 / 10 ≤ x → x < 1 → 1 / 10 ≤ y → y < 1 → |x * 10 ^ 16 - k| < 1 / 2 → |y * 10 ^ 16 - k| < 1 / 2 → N.print .double x = N.print .double y) :
    ¬ (Exact N .double (5404319552844595 / 2 ^ 54) ∧ Exact N .double (5404319552844596 / 2 ^ 54)) ∧ (2 : ℚ) ^ 52 ≤ 5404319552844595 ∧ (5404319552844596 : ℚ) < 2 ^ 53 := by
  refine ⟨?_, by norm_num, by norm_num⟩
  rintro ⟨h1, h2⟩
  have e := h (5404319552844595 / 2 ^ 54) (5404319552844596 / 2 ^ 54) 3000000000000000 (by norm_num) (by norm_num) (by norm_num) (by norm_num)
    (by rw [abs_lt]; constructor <;> norm_num) (by rw [abs_lt]; constructor <;> norm_num)
  have h3 := h1.1
  rw [e, h2.1] at h3
  have h4 : (5404319552844596 / 2 ^ 54 : ℚ) = 5404319552844595 / 2 ^ 54 := by injection h3
  norm_num at h4

end Fimex.NcmlWrite
