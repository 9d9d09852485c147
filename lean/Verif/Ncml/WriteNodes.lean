import Verif.Ncml.WriteRead
import Mathlib.Data.Nat.Digits.Lemmas

/-! # Lemmas: elements that are written, as the reader gets them -/

namespace Fimex.NcmlWrite

open Cdm hiding lengthOf
open Tables NcmlDoc
open Fimex.Text (join tokenize)

variable {F : Type}

/-! ## What can be written -/

/-- A text whose characters an XML document can hold in the value of an attribute, without tabs and line ends. -/
def Plain (s : List Char) : Prop := ∀ c ∈ s, isXmlChar c = true ∧ c ≠ '\t' ∧ c ≠ '\n' ∧ c ≠ '\r'

/-- A plain text that needs no escaping. -/
def Bare (s : List Char) : Prop := Plain s ∧ ∀ c ∈ s, c ≠ '&' ∧ c ≠ '<' ∧ c ≠ '"'

/-- Characters of printed numbers. -/
def numChar (c : Char) : Bool := c.isAlphanum || c == '+' || c == '-' || c == '.'

/-- A number that is read as it has been written. -/
def Exact (N : Numbers F) (t : DataType) (x : F) : Prop :=
  N.parse t (N.print t x) = .ok x ∧ N.print t x ≠ [] ∧ ∀ c ∈ N.print t x, numChar c = true

/-- A text can be told from what follows: with the separator behind it, the separator stands first at the end. -/
def Apart (m s : List Char) : Prop := ∀ a b, s ++ m = a ++ m ++ b → b = []

/-- Numbers with sign. -/
def Signed (t : DataType) : Prop := t = .char ∨ t = .short ∨ t = .int ∨ t = .int64 ∨ t = .float ∨ t = .double

/-! ## Texts -/

theorem decode_bare {stop : Char → Bool} {f : Char → Char} : ∀ {s : List Char}, (∀ c ∈ s, c ≠ '&' ∧ stop c = false ∧ isXmlChar c = true ∧ f c = c) →
    decodeLoop stop f none s = some s
  | [], _ => rfl
  | c :: s, h => by
    obtain ⟨h1, h2, h3, h4⟩ := h c List.mem_cons_self
    rw [decodeLoop, if_neg h1, if_neg (by simp [h2, h3]), decode_bare fun x hx => h x (List.mem_cons_of_mem _ hx), h4]
    rfl

theorem toSpace_plain {c : Char} (h : c ≠ '\t' ∧ c ≠ '\n' ∧ c ≠ '\r') : toSpace c = c := by
  unfold toSpace
  rw [if_neg]
  rintro (e | e | e)
  · exact h.1 e
  · exact h.2.1 e
  · exact h.2.2 e

theorem bare_attr {s : List Char} (h : Bare s) : decodeAttr s = some s := by
  unfold decodeAttr
  rw [lineEnds_plain fun c hc => (h.1 c hc).2.2.2]
  apply decode_bare
  intro c hc
  obtain ⟨h1, h2⟩ := h.1 c hc
  obtain ⟨h3, h4, h5⟩ := h.2 c hc
  exact ⟨h3, by simp [h4, h5], h1, toSpace_plain h2⟩

theorem plain_attr {s : List Char} (h : Plain s) : decodeAttr (escapeXml s) = some s := by
  rw [decode_escaped s fun c hc => (h c hc).1, lineEnds_plain fun c hc => (h c hc).2.2.2]
  congr 1
  conv_rhs => rw [← List.map_id s]
  exact List.map_congr_left fun c hc => toSpace_plain (h c hc).2

theorem numChar_facts {c : Char} (h : numChar c = true) : isXmlChar c = true ∧ c ≠ '\t' ∧ c ≠ '\n' ∧ c ≠ '\r' ∧ c ≠ '&' ∧ c ≠ '<' ∧ c ≠ '"' ∧ c ≠ '>' ∧ c ≠ ' ' ∧ c ≠ ',' := by
  have hr : (48 ≤ c.toNat ∧ c.toNat ≤ 57) ∨ (65 ≤ c.toNat ∧ c.toNat ≤ 90) ∨ (97 ≤ c.toNat ∧ c.toNat ≤ 122) ∨ c.toNat = 43 ∨ c.toNat = 45 ∨ c.toNat = 46 := by
    unfold numChar at h
    have e : ∀ a b : Char, a.val ≤ b.val ↔ a.toNat ≤ b.toNat := fun a b => UInt32.le_iff_toNat_le
    have e' : ∀ a : Char, c = a → c.toNat = a.toNat := fun a h => by rw [h]
    simp only [Char.isAlphanum, Char.isAlpha, Char.isUpper, Char.isLower, Char.isDigit, Bool.or_eq_true, Bool.and_eq_true, decide_eq_true_eq, beq_iff_eq, ge_iff_le, e] at h
    have a1 : 'A'.toNat = 65 := rfl
    have a2 : 'Z'.toNat = 90 := rfl
    have a3 : 'a'.toNat = 97 := rfl
    have a4 : 'z'.toNat = 122 := rfl
    have a5 : '0'.toNat = 48 := rfl
    have a6 : '9'.toNat = 57 := rfl
    have b1 : '+'.toNat = 43 := rfl
    have b2 : '-'.toNat = 45 := rfl
    have b3 : '.'.toNat = 46 := rfl
    have h' := h.imp (Or.imp (Or.imp id (e' _)) (e' _)) (e' _)
    clear h e e'
    omega
  have hne : ∀ d : Char, c = d → c.toNat = d.toNat := fun d e => by rw [e]
  refine ⟨?_, ?_, ?_, ?_, ?_, ?_, ?_, ?_, ?_, ?_⟩
  · unfold isXmlChar
    simp only [Bool.or_eq_true, Bool.and_eq_true, decide_eq_true_eq, bne_iff_ne]
    right
    omega
  all_goals
    intro e
    have := hne _ e
    simp at this
    omega

/-! ## Joined texts -/

theorem join_cons {t : List Char} {ts : List (List Char)} {d : List Char} : join (t :: ts) d = t ++ (ts.map (d ++ ·)).flatten := by
  simp [join, Text.joinLoop_eq]

theorem join_cons2 {t : List Char} {ts : List (List Char)} {d : List Char} (h : ts ≠ []) : join (t :: ts) d = t ++ d ++ join ts d := by
  cases ts with
  | nil => exact absurd rfl h
  | cons u us => simp [join_cons]

theorem join_append {d : List Char} : ∀ {ts us : List (List Char)}, ts ≠ [] → us ≠ [] → join (ts ++ us) d = join ts d ++ d ++ join us d
  | [], _, h, _ => absurd rfl h
  | [t], us, _, h => by rw [List.singleton_append, join_cons2 h]; simp [join_cons]
  | t :: u :: ts, us, _, h => by
    rw [List.cons_append, join_cons2 (by simp), join_append (by simp) h, join_cons2 (t := t) (ts := u :: ts) (by simp)]
    simp

theorem join_join {d : List Char} : ∀ {L : List (List (List Char))}, (∀ l ∈ L, l ≠ []) → join (L.map (join · d)) d = join L.flatten d
  | [], _ => rfl
  | [l], _ => by simp [join_cons]
  | l :: m :: L, h => by
    have hm : m ≠ [] := h m (by simp)
    rw [List.map_cons, join_cons2 (by simp), join_join fun x hx => h x (List.mem_cons_of_mem _ hx)]
    show _ = join (l ++ (m :: L).flatten) d
    rw [join_append (h l (by simp)) (by simp [hm])]

theorem mem_join {c : Char} {d : List Char} {ts : List (List Char)} (h : c ∈ join ts d) : c ∈ d ∨ ∃ t ∈ ts, c ∈ t := by
  cases ts with
  | nil => cases h
  | cons t ts =>
    rw [join_cons] at h
    rcases List.mem_append.1 h with h | h
    · exact Or.inr ⟨t, by simp, h⟩
    · obtain ⟨x, hx, hc⟩ := List.mem_flatten.1 h
      obtain ⟨y, hy, rfl⟩ := List.mem_map.1 hx
      rcases List.mem_append.1 hc with hc | hc
      · exact Or.inl hc
      · exact Or.inr ⟨y, by simp [hy], hc⟩

theorem join_ne {t : List Char} {ts : List (List Char)} {d : List Char} (ht : t ∈ ts) (hn : t ≠ []) : join ts d ≠ [] := by
  intro e
  obtain ⟨c, hc⟩ := List.exists_mem_of_ne_nil t hn
  have : c ∈ join ts d := by
    cases ts with
    | nil => cases ht
    | cons u us =>
      rw [join_cons]
      rcases List.mem_cons.1 ht with rfl | ht
      · exact List.mem_append_left _ hc
      · exact List.mem_append_right _ (List.mem_flatten.2 ⟨d ++ t, List.mem_map.2 ⟨t, ht, rfl⟩, List.mem_append_right _ hc⟩)
  rw [e] at this
  cases this

theorem split_words {ts : List (List Char)} (h : ∀ t ∈ ts, t ≠ [] ∧ ∀ c ∈ t, c ∉ " ,\t\r\n".toList) : split (join ts [' ']) [] = .ok ts := by
  unfold split Ncml.splitNcmlValues
  rw [if_pos rfl, Text.C26_tokenize_of_join ts [' '] _ _ (Nat.lt_succ_self _) h (by simp) (by decide)]
  rfl

theorem pieces_of_join {m : List Char} (hm : m ≠ []) : ∀ {ts : List (List Char)}, ts ≠ [] → (∀ t ∈ ts, Apart m t) → Ncml.Pieces m (join ts m) ts
  | [], h, _ => absurd rfl h
  | [t], _, h => by
    have e : join [t] m = t := by simp [join_cons]
    rw [e]
    refine .last t fun a b e => ?_
    have := h t (by simp) a (b ++ m) (by rw [e]; simp)
    simp [hm] at this
  | t :: u :: ts, _, h => by
    rw [join_cons2 (by simp)]
    exact .cons t _ _ (h t (by simp)) (pieces_of_join hm (by simp) fun x hx => h x (List.mem_cons_of_mem _ hx))

theorem split_apart {m : List Char} (hm : m ≠ []) {ts : List (List Char)} (hts : ts ≠ []) (h : ∀ t ∈ ts, Apart m t) : split (join ts m) m = .ok ts := by
  unfold split Ncml.splitNcmlValues
  rw [if_neg hm]
  obtain ⟨ts', h1, -, h3⟩ := Ncml.C71_split_marker (join ts m) m hm _ (Nat.lt_succ_self _)
  rw [h1, h3 _ (pieces_of_join hm hts h)]
  rfl

theorem contains_iff (s t : List Char) : contains s t = true ↔ ∃ a b, s = a ++ t ++ b := by
  unfold contains
  obtain ⟨h1, h2⟩ := Ncml.findMarker_spec t s 0
  cases hf : Ncml.findMarker t s 0 with
  | none =>
    simp only [Option.isSome_none, Bool.false_eq_true, false_iff]
    rintro ⟨a, b, e⟩
    exact absurd (h2 hf a b e) (by omega)
  | some i =>
    simp only [Option.isSome_some, true_iff]
    obtain ⟨-, a, b, e, -⟩ := h1 i hf
    exact ⟨a, b, e⟩

theorem apart_not {m s : List Char} (hm : m ≠ []) (h : Apart m s) : contains s m = false := by
  rw [Bool.eq_false_iff]
  intro e
  obtain ⟨a, b, e⟩ := (contains_iff s m).1 e
  have := h a (b ++ m) (by rw [e]; simp)
  simp [hm] at this

/-! ## Elements -/

theorem props_nil : decodeProps [] = some [] := rfl

theorem props_cons {k : String} {r t : List Char} {l : List (String × List Char)} {m : List (String × String)} (h : decodeAttr r = some t) (hl : decodeProps l = some m) :
    decodeProps ((k, r) :: l) = some ((k, String.ofList t) :: m) := by
  rw [decodeProps, h, hl]

theorem decode_node {tag : String} {props : List (String × List Char)} {p : List (String × String)} {content t : List Char} {children : List Raw} {l : List Xml}
    (hp : decodeProps props = some p) (ht : decodeText content = some t) (hl : decodeAll children = some l) :
    decode (.node tag props content children) = some (.node tag p (String.ofList t) l) := by
  rw [decode, hp, ht, hl]

theorem text_nil : decodeText [] = some [] := by decide

theorem all_nil : decodeAll [] = some [] := by rw [decodeAll]

theorem all_forall {xs : List Xml} {rs : List Raw} (h : List.Forall₂ (fun r x => decode r = some x) rs xs) : decodeAll rs = some xs := by
  induction h with
  | nil => exact all_nil
  | cons h _ ih => rw [decodeAll, h, ih]

theorem toDigits_num (n : Nat) : ∀ c ∈ (toString n).toList, numChar c = true := by
  intro c hc
  have hd : c.isDigit = true := by
    have e : (toString n).toList = Nat.toDigits 10 n := by simp [toString, Nat.repr]
    rw [e] at hc
    exact Nat.isDigit_of_mem_toDigits (b := 10) (by decide) (by decide) hc
  simp [numChar, Char.isAlphanum, hd]

theorem bare_num {s : List Char} (h : ∀ c ∈ s, numChar c = true) : Bare s :=
  ⟨fun c hc => ⟨(numChar_facts (h c hc)).1, (numChar_facts (h c hc)).2.1, (numChar_facts (h c hc)).2.2.1, (numChar_facts (h c hc)).2.2.2.1⟩,
    fun c hc => ⟨(numChar_facts (h c hc)).2.2.2.2.1, (numChar_facts (h c hc)).2.2.2.2.2.1, (numChar_facts (h c hc)).2.2.2.2.2.2.1⟩⟩

theorem dim_node (N : Numbers F) {progression : DataType → Nat → String → String → Res (Val F)} {read : String → Res (Val F)} {d : Dim} (hn : Plain d.name.toList)
    (hi : N.int (toString d.length) = .ok (d.length : Int)) (hl : d.length < two64) :
    ∃ x, decode (rawDim d) = some x ∧ DimNode (readEnv N progression read) x d := by
  have e1 := plain_attr hn
  have e2 := bare_attr (bare_num (toDigits_num d.length))
  obtain ⟨n, l, u⟩ := d
  cases u with
  | false =>
    refine ⟨_, decode_node (props_cons e1 (props_cons e2 props_nil)) text_nil all_nil, ?_⟩
    exact ⟨rfl, by simp [Xml.prop, Xml.props], by simp [Xml.has, Xml.props], by simp [Xml.has, Xml.props], by show N.int (String.ofList (toString l).toList) = _; rw [String.ofList_toList]; exact hi, hl,
      by simp [Xml.has, Xml.props], by simp⟩
  | true =>
    have e3 : decodeAttr "true".toList = some "true".toList := by decide
    refine ⟨_, decode_node (props_cons e1 (props_cons e2 (props_cons e3 props_nil))) text_nil all_nil, ?_⟩
    exact ⟨rfl, by simp [Xml.prop, Xml.props], by simp [Xml.has, Xml.props], by simp [Xml.has, Xml.props], by show N.int (String.ofList (toString l).toList) = _; rw [String.ofList_toList]; exact hi, hl,
      by simp [Xml.has, Xml.props], by simp [Xml.prop, Xml.props]⟩

/-! ## Attributes -/

/-- A text that stands alone among others separated by space. -/
def Single (s : List Char) : Prop := s ≠ [] ∧ ∀ c ∈ s, c ≠ ' ' ∧ c ≠ ','

/-- The separators besides space, in the order in which they are tried. -/
def others : List (List Char) := [[','], ['|'], ['#'], "---NEXT-NCML-STRING---".toList]

/-- An attribute that is read as it has been written. -/
def Kept (N : Numbers F) (a : Attr (Val F)) : Prop :=
  Plain a.name.toList ∧
  match a.value with
  | .nums t l => Signed t ∧ l ≠ [] ∧ ∀ x ∈ l, Exact N t x
  | .text s => s ≠ [] ∧ Plain s
  | .strings l => (∀ s ∈ l, Plain s) ∧ ((l ≠ [] ∧ ∀ s ∈ l, Single s) ∨
      ((∃ s ∈ l, ' ' ∈ s) ∧ ∃ pre sep post, others = pre ++ sep :: post ∧ (∀ p ∈ pre, ∃ s ∈ l, ∃ a b, s = a ++ p ++ b) ∧ ∀ s ∈ l, Apart sep s))

theorem parse_all {N : Numbers F} {t : DataType} : ∀ {l : List F}, (∀ x ∈ l, Exact N t x) → parseAll N t (l.map (N.print t)) = .ok l
  | [], _ => rfl
  | x :: l, h => by
    rw [List.map_cons, parseAll, (h x (by simp)).1, parse_all fun y hy => h y (List.mem_cons_of_mem _ hy)]
    rfl

theorem by_array {N : Numbers F} {t : DataType} (ht : Signed t) {l : List F} (h : ∀ x ∈ l, Exact N t x) : byArray N t (l.map (N.print t)) = .ok (.nums t l) := by
  rcases ht with rfl | rfl | rfl | rfl | rfl | rfl <;> simp only [byArray, parse_all h] <;> rfl

theorem name_bare (t : DataType) : decodeAttr (cdm2ncml t).name = some (cdm2ncml t).name := by cases t <;> decide

theorem exact_words {N : Numbers F} {t : DataType} {l : List F} (h : ∀ x ∈ l, Exact N t x) : ∀ s ∈ l.map (N.print t), s ≠ [] ∧ ∀ c ∈ s, c ∉ " ,\t\r\n".toList := by
  intro s hs
  obtain ⟨x, hx, rfl⟩ := List.mem_map.1 hs
  refine ⟨(h x hx).2.1, fun c hc => ?_⟩
  have := numChar_facts ((h x hx).2.2 c hc)
  simp
  tauto

theorem exact_plain {N : Numbers F} {t : DataType} {l : List F} (h : ∀ x ∈ l, Exact N t x) : ∀ c ∈ join (l.map (N.print t)) [' '], c = ' ' ∨ numChar c = true := by
  intro c hc
  rcases mem_join hc with hc | ⟨s, hs, hc⟩
  · left; simpa using hc
  · obtain ⟨x, hx, rfl⟩ := List.mem_map.1 hs
    exact Or.inr ((h x hx).2.2 c hc)

theorem plain_of {s : List Char} (h : ∀ c ∈ s, c = ' ' ∨ numChar c = true) : Plain s := by
  intro c hc
  rcases h c hc with rfl | h
  · decide
  · have := numChar_facts h
    tauto

theorem space_separator {l : List (List Char)} (h : ∀ s ∈ l, ' ' ∉ s) : findSeparator l = .ok [' '] := by
  have : (l.any fun s => contains s [' ']) = false := by
    rw [List.any_eq_false]
    intro s hs hc
    obtain ⟨a, b, e⟩ := (contains_iff _ _).1 hc
    exact h s hs (by rw [e]; simp)
  unfold findSeparator
  have e : (separators.find? fun sep => !(l.any fun s => contains s sep)) = some [' '] := by
    show List.find? _ ([' '] :: _) = _
    rw [List.find?_cons_of_pos]
    simpa using this
  rw [e]

theorem other_separator {l : List (List Char)} {pre post : List (List Char)} {sep : List Char} (h : ∃ s ∈ l, ' ' ∈ s) (ho : others = pre ++ sep :: post)
    (hp : ∀ p ∈ pre, ∃ s ∈ l, ∃ a b, s = a ++ p ++ b) (hs : ∀ s ∈ l, contains s sep = false) : findSeparator l = .ok sep := by
  have e : separators = ([' '] :: pre) ++ sep :: post := by
    rw [List.cons_append, ← ho]
    rfl
  have e : (separators.find? fun sep => !(l.any fun s => contains s sep)) = some sep := by
    rw [List.find?_eq_some_iff_append]
    refine ⟨by simpa using hs, _, _, e, fun p hp' => ?_⟩
    have : ∃ s ∈ l, ∃ a b, s = a ++ p ++ b := by
      rcases List.mem_cons.1 hp' with rfl | hp'
      · obtain ⟨s, hs, hc⟩ := h
        obtain ⟨a, b, e⟩ := List.append_of_mem hc
        exact ⟨s, hs, a, b, by simpa using e⟩
      · exact hp p hp'
    obtain ⟨s, hs, e⟩ := this
    simp only [Bool.not_not, List.any_eq_true]
    exact ⟨s, hs, (contains_iff _ _).2 e⟩
  unfold findSeparator
  rw [e]

theorem others_facts : ∀ sep ∈ others, sep ≠ [] ∧ sep ≠ [' '] ∧ decodeAttr sep = some sep ∧ Plain sep := by
  have h : ∀ sep ∈ others, sep ≠ [] ∧ sep ≠ [' '] ∧ decodeAttr sep = some sep ∧ ∀ c ∈ sep, isXmlChar c = true ∧ c ≠ '\t' ∧ c ≠ '\n' ∧ c ≠ '\r' := by decide +kernel
  exact h

theorem attr_made {D V : Type} {env : Env D V} {x : Xml} {n T S U : String} {t : DataType} {ps : List String} {v : V} (htag : x.tag = "attribute") (horg : x.has "orgName" = false)
    (hname : x.prop "name" = n) (htype : x.prop "type" = T) (hsep : x.prop "separator" = S) (hval : x.prop "value" = U) (hU : U ≠ "") (hT : T ≠ "")
    (ht : ncmlName2cdm T.toList false = t) (hnat : t ≠ .nat)
    (hp : (T = "string" ∧ ps = [U]) ∨ (T ≠ "string" ∧ T ≠ "String" ∧ env.pieces U S = .ok ps)) (hv : env.value t ps = .ok v) : AttrNode env x ⟨n, v⟩ := by
  have htext : textOf x = U := by
    unfold textOf
    rw [hval, if_neg hU]
  refine ⟨htag, horg, by rw [htext]; exact hU, ?_⟩
  rw [htext]
  unfold createAttr
  dsimp only
  rw [htype, if_neg hT, ht, if_neg hnat, hsep, hname]
  rcases hp with ⟨h1, rfl⟩ | ⟨h1, h2, h3⟩
  · rw [if_pos (Or.inl h1)]
    simp only [Res.bind, hv]
  · rw [if_neg (by tauto), h3]
    simp only [Res.bind, hv]

theorem ofList_ne {s : List Char} (h : s ≠ []) : String.ofList s ≠ "" := by
  intro e
  have := congrArg String.toList e
  rw [String.toList_ofList] at this
  exact h this

theorem signed_facts {t : DataType} (h : Signed t) : String.ofList (cdm2ncml t).name ≠ "" ∧ String.ofList (cdm2ncml t).name ≠ "string" ∧ String.ofList (cdm2ncml t).name ≠ "String" ∧
    ncmlName2cdm (cdm2ncml t).name false = t ∧ t ≠ .nat ∧ t ≠ .strings ∧ t ≠ .string := by
  rcases h with rfl | rfl | rfl | rfl | rfl | rfl <;> decide +kernel

theorem map_ofList_toList (l : List (List Char)) : (l.map String.ofList).map String.toList = l := by
  rw [List.map_map]
  conv_rhs => rw [← List.map_id l]
  exact List.map_congr_left fun s _ => String.toList_ofList

/-- The element of an attribute as the reader gets it. -/
theorem attr_node (N : Numbers F) {progression : DataType → Nat → String → String → Res (Val F)} {read : String → Res (Val F)} {a : Attr (Val F)} (h : Kept N a) :
    ∃ r x, rawAttr N a = .ok r ∧ decode r = some x ∧ AttrNode (readEnv N progression read) x a := by
  obtain ⟨hn, hv⟩ := h
  obtain ⟨name, v⟩ := a
  have e1 := plain_attr hn
  cases v with
  | nums t l =>
    obtain ⟨ht, hl, hx⟩ := hv
    have e2 := plain_attr (plain_of (exact_plain hx))
    refine ⟨_, _, rfl, decode_node (props_cons e1 (props_cons (name_bare t) (props_cons e2 props_nil))) text_nil all_nil, ?_⟩
    obtain ⟨x, hxl⟩ := List.exists_mem_of_ne_nil l hl
    have hne : join (l.map (N.print t)) [' '] ≠ [] := join_ne (List.mem_map.2 ⟨x, hxl, rfl⟩) (hx x hxl).2.1
    obtain ⟨f1, f2, f3, f4, f5, -⟩ := signed_facts ht
    refine attr_made (T := String.ofList (cdm2ncml t).name) (S := "") (t := t) (ps := (l.map (N.print t)).map String.ofList) rfl (by simp [Xml.has, Xml.props])
      (by simp [Xml.prop, Xml.props]) (by simp [Xml.prop, Xml.props]) (by simp [Xml.prop, Xml.props]) (U := String.ofList (join (l.map (N.print t)) [' '])) (by simp [Xml.prop, Xml.props])
      (ofList_ne hne) f1 (by rw [String.toList_ofList]; exact f4) f5 (Or.inr ⟨f2, f3, ?_⟩) ?_
    · show (split (String.ofList _).toList "".toList).bind _ = _
      rw [String.toList_ofList]
      show (split _ []).bind _ = _
      rw [split_words (exact_words hx)]
      rfl
    · show byArray N t _ = _
      rw [map_ofList_toList]
      exact by_array ht hx
  | text s =>
    obtain ⟨hs, hp⟩ := hv
    have e2 := plain_attr hp
    refine ⟨_, _, rfl, decode_node (props_cons e1 (props_cons (name_bare .string) (props_cons e2 props_nil))) text_nil all_nil, ?_⟩
    refine attr_made (T := "string") (S := "") (t := .string) (ps := [String.ofList s]) rfl (by simp [Xml.has, Xml.props])
      (by simp [Xml.prop, Xml.props]) (by simp [Xml.prop, Xml.props, cdm2ncml]) (by simp [Xml.prop, Xml.props]) (U := String.ofList s) (by simp [Xml.prop, Xml.props])
      (ofList_ne hs) (by decide) (by decide +kernel) (by decide) (Or.inl ⟨rfl, rfl⟩) ?_
    show byArray N .string _ = _
    simp [byArray, join_cons]
  | strings l =>
    obtain ⟨hp, hv⟩ := hv
    rcases hv with ⟨hl, hw⟩ | ⟨hsp, pre, sep, post, ho, hpre, hap⟩
    · have hf : findSeparator l = .ok [' '] := space_separator fun s hs hc => ((hw s hs).2 _ hc).1 rfl
      have e2 : decodeAttr (escapeXml (join l [' '])) = some (join l [' ']) := by
        apply plain_attr
        intro c hc
        rcases mem_join hc with hc | ⟨s, hs, hc⟩
        · have : c = ' ' := by simpa using hc
          subst this; decide
        · exact hp s hs c hc
      have hr : rawAttr N (⟨name, .strings l⟩ : Attr (Val F)) = .ok (.node "attribute" [("name", escapeXml name.toList), ("type", (cdm2ncml .strings).name), ("value", escapeXml (join l [' ']))] [] []) := by
        unfold rawAttr attrSeparator
        simp only [hf]
        rfl
      refine ⟨_, _, hr, decode_node (props_cons e1 (props_cons (name_bare .strings) (props_cons e2 props_nil))) text_nil all_nil, ?_⟩
      obtain ⟨x, hxl⟩ := List.exists_mem_of_ne_nil l hl
      refine attr_made (T := "strings") (S := "") (t := .strings) (ps := l.map String.ofList) rfl (by simp [Xml.has, Xml.props])
        (by simp [Xml.prop, Xml.props]) (by simp [Xml.prop, Xml.props, cdm2ncml]) (by simp [Xml.prop, Xml.props]) (U := String.ofList (join l [' '])) (by simp [Xml.prop, Xml.props])
        (ofList_ne (join_ne hxl (hw x hxl).1)) (by decide) (by decide +kernel) (by decide) (Or.inr ⟨by decide, by decide, ?_⟩) ?_
      · show (split (String.ofList _).toList []).bind _ = _
        rw [String.toList_ofList, split_words]
        · rfl
        · intro t ht
          refine ⟨(hw t ht).1, fun c hc => ?_⟩
          have h1 := (hw t ht).2 c hc
          have h2 := hp t ht c hc
          simp
          tauto
      · show byArray N .strings _ = _
        rw [map_ofList_toList]
        rfl
    · have hmem : sep ∈ others := by rw [ho]; simp
      obtain ⟨g1, g2, g3, g4⟩ := others_facts sep hmem
      have hf : findSeparator l = .ok sep := other_separator hsp ho hpre fun s hs => apart_not g1 (hap s hs)
      obtain ⟨s, hs, hc⟩ := hsp
      have hl : l ≠ [] := List.ne_nil_of_mem hs
      have e2 : decodeAttr (escapeXml (join l sep)) = some (join l sep) := by
        apply plain_attr
        intro c hc
        rcases mem_join hc with hc | ⟨s, hs, hc⟩
        · exact g4 c hc
        · exact hp s hs c hc
      have hr : rawAttr N (⟨name, .strings l⟩ : Attr (Val F)) =
          .ok (.node "attribute" [("name", escapeXml name.toList), ("type", (cdm2ncml .strings).name), ("separator", sep), ("value", escapeXml (join l sep))] [] []) := by
        unfold rawAttr attrSeparator
        simp only [hf, Res.bind]
        rw [if_pos g2]
        rfl
      refine ⟨_, _, hr, decode_node (props_cons e1 (props_cons (name_bare .strings) (props_cons g3 (props_cons e2 props_nil)))) text_nil all_nil, ?_⟩
      refine attr_made (T := "strings") (S := String.ofList sep) (t := .strings) (ps := l.map String.ofList) rfl (by simp [Xml.has, Xml.props])
        (by simp [Xml.prop, Xml.props]) (by simp [Xml.prop, Xml.props, cdm2ncml]) (by simp [Xml.prop, Xml.props]) (U := String.ofList (join l sep)) (by simp [Xml.prop, Xml.props])
        (ofList_ne (join_ne hs (List.ne_nil_of_mem hc))) (by decide) (by decide +kernel) (by decide) (Or.inr ⟨by decide, by decide, ?_⟩) ?_
      · show (split (String.ofList _).toList (String.ofList sep).toList).bind _ = _
        rw [String.toList_ofList, String.toList_ofList, split_apart g1 hl hap]
        rfl
      · show byArray N .strings _ = _
        rw [map_ofList_toList]
        rfl

/-! ## Variables -/

variable {CS : Type}

/-- A name that can stand in the shape of a variable. -/
def Word (s : List Char) : Prop := s ≠ [] ∧ Bare s ∧ ' ' ∉ s

/-- A variable whose name, shape and type are read as they have been written. -/
structure Described (v : Var (Payload (Val F))) : Prop where
  nonempty : v.name ≠ ""
  notGlobal : v.name ≠ globalNS
  plain : Plain v.name.toList
  shape : ∀ n ∈ v.shape, Word n.toList
  type : Signed v.payload.dtype ∨ v.payload.dtype = .string ∨ v.payload.dtype = .strings
  vector : v.payload.vector = ("", .none)

/-- The lengths of the dimensions of a shape. -/
def Sizes (c : CDM (Payload (Val F)) (Val F) CS) (shape : List String) (lens : List Nat) : Prop := List.Forall₂ (fun n l => ∃ d ∈ c.dims, d.name = n ∧ d.length = l) shape lens

/-- What a source delivers for a variable: everything at once, or one slice after the other along the unlimited dimension. -/
def Delivers (S : Source F) (c : CDM (Payload (Val F)) (Val F) CS) (v : Var (Payload (Val F))) (parts : List (Val F)) : Prop :=
  ((∀ u, getUnlimitedDim c = some u → u.name ∉ v.shape) ∧ ∃ d, parts = [d] ∧ S.all v.name = .ok (some d)) ∨
  ∃ u, getUnlimitedDim c = some u ∧ u.name ∈ v.shape ∧ parts.length = u.length ∧ ∀ i d, parts[i]? = some d → S.slice v.name i = .ok (some d)

/-- Parts that hold `n` values altogether and whose texts are read as they have been written; `d` are the values. -/
def Values (N : Numbers F) (t : DataType) (n : Nat) (parts : List (Val F)) (d : Val F) : Prop :=
  (Signed t ∧ ∃ L : List (List F), parts = L.map (.nums t) ∧ L ≠ [] ∧ (∀ l ∈ L, l ≠ []) ∧ (∀ x ∈ L.flatten, Exact N t x) ∧ L.flatten.length = n ∧ d = .nums t L.flatten) ∨
  (t = .strings ∧ ∃ L : List (List (List Char)), parts = L.map .strings ∧ L ≠ [] ∧ (∀ l ∈ L, l ≠ []) ∧ L.flatten.length = n ∧ d = .strings L.flatten ∧
    L.flatten ≠ [[]] ∧ (∀ s ∈ L.flatten, Apart stringsMarker s ∧ ∀ c ∈ s, isXmlChar c = true ∧ c ≠ '<' ∧ c ≠ '&' ∧ c ≠ '\r') ∧
    ∀ a b, join L.flatten stringsMarker ≠ a ++ "]]>".toList ++ b)

/-- The data that a variable has in the reader without an element for them: none for `CDM_INT64`, whose name means `CDM_INT` when the variable is made. -/
def unread (t : DataType) : Option (Val F) := if t = .int64 then none else some (blank t)

theorem dim_find : ∀ {ds : List Dim} {d : Dim}, (ds.map (·.name)).Nodup → d ∈ ds → (ds.find? fun e => e.name == d.name) = some d
  | [], _, _, h => by cases h
  | e :: ds, d, hn, h => by
    rw [List.map_cons, List.nodup_cons] at hn
    rcases List.mem_cons.1 h with rfl | h
    · simp
    · rw [List.find?_cons_of_neg, dim_find hn.2 h]
      intro he
      exact hn.1 (List.mem_map.2 ⟨d, h, (by simpa using he : e.name = d.name).symm⟩)

theorem dim_get {P V : Type} {c : CDM P V CS} {d : Dim} (hn : (c.dims.map (·.name)).Nodup) (h : d ∈ c.dims) : getDimension c d.name = .ok d := by
  unfold getDimension
  rw [dim_find hn h]

theorem sizes_lengths {V : Type} {at_ : String → Option (List (Attr V))} {vs : List (Var (Payload (Val F)))} {cs : CS} {c : CDM (Payload (Val F)) (Val F) CS}
    (hn : (c.dims.map (·.name)).Nodup) {shape : List String} {lens : List Nat} (h : Sizes c shape lens) :
    lengths (⟨at_, vs, c.dims, false, cs⟩ : CDM (Payload (Val F)) V CS) shape = .ok lens := by
  induction h with
  | nil => rfl
  | cons h _ ih =>
    obtain ⟨d, hd, rfl, rfl⟩ := h
    rw [lengths, dim_get (c := (⟨at_, vs, c.dims, false, cs⟩ : CDM (Payload (Val F)) V CS)) hn hd, ih]
    rfl

theorem sizes_slice {c : CDM (Payload (Val F)) (Val F) CS} (hn : (c.dims.map (·.name)).Nodup) {shape : List String} {lens : List Nat} (h : Sizes c shape lens) :
    ∃ n, sliceSize c shape = .ok n := by
  induction h with
  | nil => exact ⟨1, rfl⟩
  | cons h _ ih =>
    obtain ⟨d, hd, rfl, rfl⟩ := h
    obtain ⟨n, ih⟩ := ih
    rw [sliceSize, dim_get hn hd, ih]
    exact ⟨_, rfl⟩

theorem slices_ok {S : Source F} {v : String} : ∀ {parts : List (Val F)} {i : Nat}, (∀ k d, parts[k]? = some d → S.slice v (i + k) = .ok (some d)) →
    slices S v i parts.length = .ok (parts.map some)
  | [], _, _ => rfl
  | d :: parts, i, h => by
    have h0 := h 0 d rfl
    rw [List.length_cons, slices, show S.slice v i = .ok (some d) from h0, slices_ok (parts := parts) fun k e hk => ?_]
    · rfl
    · have := h (k + 1) e hk
      rwa [show i + (k + 1) = i + 1 + k from by omega] at this

theorem chunks_ok {S : Source F} {c : CDM (Payload (Val F)) (Val F) CS} {v : Var (Payload (Val F))} {parts : List (Val F)} (h : Delivers S c v parts) :
    chunks S c v = .ok (parts.map some) := by
  unfold chunks
  rcases h with ⟨h1, d, rfl, h2⟩ | ⟨u, h1, h2, h3, h4⟩
  · have : hasUnlimitedDim c v = false := by
      unfold hasUnlimitedDim
      cases hu : getUnlimitedDim c with
      | none => rfl
      | some u => simpa using h1 u hu
    rw [this, if_neg (by simp), h2]
    rfl
  · have : hasUnlimitedDim c v = true := by
      unfold hasUnlimitedDim
      rw [h1]
      simpa using h2
    rw [this, if_pos rfl, h1]
    show slices S v.name 0 u.length = _
    rw [← h3]
    exact slices_ok fun k d hk => by rw [Nat.zero_add]; exact h4 k d hk

theorem chunkTexts_ok {N : Numbers F} {fill : Res (List Char)} {n : Nat} {sep : List Char} : ∀ {parts : List (Val F)}, (∀ d ∈ parts, 0 < d.size) →
    chunkTexts N fill n sep (parts.map some) = .ok (parts.map fun d => stream N d sep)
  | [], _ => rfl
  | d :: parts, h => by
    rw [List.map_cons, chunkTexts, chunkTexts_ok fun e he => h e (List.mem_cons_of_mem _ he)]
    have : chunkText N fill n sep (some d) = .ok (stream N d sep) := by
      unfold chunkText
      exact if_pos (h d (by simp))
    rw [this]
    rfl

theorem text_bare {s : List Char} (h : ∀ c ∈ s, isXmlChar c = true ∧ c ≠ '<' ∧ c ≠ '&' ∧ c ≠ '\r') (hm : ∀ a b, s ≠ a ++ "]]>".toList ++ b) : decodeText s = some s := by
  unfold decodeText
  have : contains s "]]>".toList = false := by
    rw [Bool.eq_false_iff]
    intro e
    obtain ⟨a, b, e⟩ := (contains_iff _ _).1 e
    exact hm a b e
  rw [this, if_neg (by simp), lineEnds_plain fun c hc => (h c hc).2.2.2]
  exact decode_bare fun c hc => ⟨(h c hc).2.2.1, by simp [(h c hc).2.1], (h c hc).1, rfl⟩

theorem read_pieces {N : Numbers F} {progression : DataType → Nat → String → String → Res (Val F)} {t : DataType} {lens : List Nat} {content sep : List Char} {l : List (List Char)} {d : Val F}
    (hc : content ≠ []) (hs : split content sep = .ok l) (hl : l.length = lens.prod) (hb : byArray N t l = .ok d) :
    readValues N progression t lens "" "" (String.ofList content) (String.ofList sep) = .ok d := by
  have h1 : (String.ofList content).isEmpty = false := by
    rw [Bool.eq_false_iff]
    intro e
    exact ofList_ne hc (String.isEmpty_iff.1 e)
  have h2 : ("" : String).isEmpty = true := rfl
  unfold readValues
  rw [h1, h2]
  simp only [ne_eq, not_true_eq_false, if_false, Bool.not_true, Bool.and_self, Bool.not_false, Bool.false_eq_true, String.toList_ofList, hs, Res.bind]
  have h3 : Ncml.dataSize lens = lens.prod := by
    unfold Ncml.dataSize
    rw [Ncml.foldl_prod, Nat.one_mul]
  rw [h3, if_neg]
  · simpa using hb
  · rintro (⟨e, h⟩ | ⟨-, h⟩)
    · rw [List.length_eq_zero_iff.1 e] at hl
      simp at hl
      omega
    · exact h hl

theorem values_node (N : Numbers F) {progression : DataType → Nat → String → String → Res (Val F)} {read : String → Res (Val F)} {S : Source F} {c : CDM (Payload (Val F)) (Val F) CS}
    (hn : (c.dims.map (·.name)).Nodup) {v : Var (Payload (Val F))} {lens : List Nat} {parts : List (Val F)} {d : Val F} (hs : Sizes c v.shape lens) (hd : Delivers S c v parts)
    (hv : Values N v.payload.dtype lens.prod parts d) :
    ∃ r y, rawValues N S c v = .ok r ∧ decode r = some y ∧ y.tag = "values" ∧ d.type = v.payload.dtype ∧
      (readEnv N progression read).fill v.payload.dtype lens (y.prop "start") (y.prop "increment") y.content (y.prop "separator") = .ok d := by
  obtain ⟨n, hn'⟩ := sizes_slice hn hs
  have hch := chunks_ok hd
  rcases hv with ⟨ht, L, rfl, h1, h2, h3, h4, rfl⟩ | ⟨ht, L, rfl, h1, h2, h4, rfl, h5, h6, h7⟩
  · obtain ⟨-, -, -, -, -, hstr, -⟩ := signed_facts ht
    have hflat : L.flatten ≠ [] := by
      obtain ⟨l, hl⟩ := List.exists_mem_of_ne_nil L h1
      obtain ⟨x, hx⟩ := List.exists_mem_of_ne_nil l (h2 l hl)
      exact List.ne_nil_of_mem (List.mem_flatten.2 ⟨l, hl, hx⟩)
    have hct : chunkTexts N (S.fill v.name) n [' '] ((L.map (Val.nums v.payload.dtype)).map some) = .ok ((L.map (Val.nums v.payload.dtype)).map fun d => stream N d [' ']) := by
      apply chunkTexts_ok
      intro d hd
      obtain ⟨l, hl, rfl⟩ := List.mem_map.1 hd
      exact List.length_pos_of_ne_nil (h2 l hl)
    have htext : join ((L.map (Val.nums v.payload.dtype)).map fun d => stream N d [' ']) [' '] = join (L.flatten.map (N.print v.payload.dtype)) [' '] := by
      rw [List.map_map, List.map_flatten, ← join_join, List.map_map]
      · rfl
      · intro l hl
        obtain ⟨m, hm, rfl⟩ := List.mem_map.1 hl
        simpa using h2 m hm
    have hr : rawValues N S c v = .ok (.node "values" [] (join (L.flatten.map (N.print v.payload.dtype)) [' ']) []) := by
      unfold rawValues
      simp only [hn', hch, Res.bind, if_neg hstr, hct, htext]
    have hplain := exact_plain h3
    have hdec : decodeText (join (L.flatten.map (N.print v.payload.dtype)) [' ']) = some (join (L.flatten.map (N.print v.payload.dtype)) [' ']) := by
      apply text_bare
      · intro c hc
        rcases hplain c hc with rfl | h
        · decide
        · have := numChar_facts h
          tauto
      · intro a b e
        have hm : '>' ∈ join (L.flatten.map (N.print v.payload.dtype)) [' '] := by rw [e]; simp
        rcases hplain _ hm with h | h
        · exact absurd h (by decide)
        · exact absurd h (by decide)
    refine ⟨_, _, hr, decode_node props_nil hdec all_nil, rfl, rfl, ?_⟩
    obtain ⟨x, hx⟩ := List.exists_mem_of_ne_nil _ hflat
    exact read_pieces (sep := []) (join_ne (List.mem_map.2 ⟨x, hx, rfl⟩) (h3 x hx).2.1) (split_words (exact_words h3)) (by rw [List.length_map]; exact h4) (by_array ht h3)
  · have hflat : L.flatten ≠ [] := by
      obtain ⟨l, hl⟩ := List.exists_mem_of_ne_nil L h1
      obtain ⟨x, hx⟩ := List.exists_mem_of_ne_nil l (h2 l hl)
      exact List.ne_nil_of_mem (List.mem_flatten.2 ⟨l, hl, hx⟩)
    have hct : chunkTexts N (S.fill v.name) n stringsMarker ((L.map (Val.strings (F := F))).map some) = .ok ((L.map (Val.strings (F := F))).map fun d => stream N d stringsMarker) := by
      apply chunkTexts_ok
      intro d hd
      obtain ⟨l, hl, rfl⟩ := List.mem_map.1 hd
      exact List.length_pos_of_ne_nil (h2 l hl)
    have htext : join ((L.map (Val.strings (F := F))).map fun d => stream N d stringsMarker) stringsMarker = join L.flatten stringsMarker := by
      rw [List.map_map, ← join_join h2]
      rfl
    have hr : rawValues N S c v = .ok (.node "values" [("separator", stringsMarker)] (join L.flatten stringsMarker) []) := by
      unfold rawValues
      simp only [hn', hch, Res.bind, if_pos ht, hct, htext]
    have hmk : stringsMarker ≠ [] ∧ decodeAttr stringsMarker = some stringsMarker ∧ ∀ c ∈ stringsMarker, isXmlChar c = true ∧ c ≠ '<' ∧ c ≠ '&' ∧ c ≠ '\r' := by decide +kernel
    have hdec : decodeText (join L.flatten stringsMarker) = some (join L.flatten stringsMarker) := by
      apply text_bare
      · intro c hc
        rcases mem_join hc with hc | ⟨s, hs, hc⟩
        · exact hmk.2.2 c hc
        · exact (h6 s hs).2 c hc
      · exact h7
    refine ⟨_, _, hr, decode_node (props_cons hmk.2.1 props_nil) hdec all_nil, rfl, ht.symm, ?_⟩
    rw [ht]
    refine read_pieces (sep := stringsMarker) ?_ (split_apart hmk.1 hflat fun s hs => (h6 s hs).1) h4 rfl
    cases hL : L.flatten with
    | nil => exact absurd hL hflat
    | cons s ss =>
      cases ss with
      | nil =>
        rw [hL] at h5
        intro e
        rw [join_cons] at e
        simp at e
        exact h5 (by rw [e])
      | cons u us =>
        rw [join_cons2 (by simp)]
        intro e
        simp at e
        exact hmk.1 e.2.1

theorem attrs_node (N : Numbers F) {progression : DataType → Nat → String → String → Res (Val F)} {read : String → Res (Val F)} : ∀ {as : List (Attr (Val F))}, (∀ a ∈ as, Kept N a) →
    ∃ rs xs, rawAttrs N as = .ok rs ∧ List.Forall₂ (fun r x => decode r = some x) rs xs ∧ List.Forall₂ (AttrNode (readEnv N progression read)) xs as
  | [], _ => ⟨[], [], rfl, .nil, .nil⟩
  | a :: as, h => by
    obtain ⟨r, x, h1, h2, h3⟩ := attr_node N (progression := progression) (read := read) (h a (by simp))
    obtain ⟨rs, xs, h4, h5, h6⟩ := attrs_node N (progression := progression) (read := read) fun b hb => h b (List.mem_cons_of_mem _ hb)
    exact ⟨r :: rs, x :: xs, by rw [rawAttrs, h1, h4]; rfl, .cons h2 h5, .cons h3 h6⟩

theorem type_facts {t : DataType} (h : Signed t ∨ t = .string ∨ t = .strings) : rawType t = ((cdm2ncml t).name, []) ∧ String.ofList (cdm2ncml t).name ≠ "" ∧
    ncmlName2cdm (cdm2ncml t).name false = t ∧ t ≠ .nat ∧ string2datatype (cdm2ncml t).name = (if t = .int64 then .int else t) := by
  rcases h with (rfl | rfl | rfl | rfl | rfl | rfl) | rfl | rfl <;> exact ⟨rfl, by decide +kernel⟩

/-- What is read of a variable that has been written. -/
def knownOf (v : Var (Payload (Val F))) : Known (Val F) :=
  (v.name, v.shape, (if v.payload.dtype = .int64 then .int else v.payload.dtype), v.payload.dtype, blank (if v.payload.dtype = .int64 then .int else v.payload.dtype))

theorem full_known {v : Var (Payload (Val F))} (h : Described v) (d : Option (Val F)) :
    full (knownOf v, d) = { v with payload := { v.payload with data := match d with | some d => some d | none => unread v.payload.dtype } } := by
  obtain ⟨n, sh, ⟨t, d0, vec⟩⟩ := v
  have hv : vec = ("", .none) := h.vector
  subst hv
  unfold full knownOf unread
  cases d with
  | some d => rfl
  | none =>
    by_cases ht : t = .int64
    · subst ht; rfl
    · simp [typed, ht]

theorem shape_words {l : List String} (h : ∀ n ∈ l, Word n.toList) : decodeAttr (join (l.map String.toList) [' ']) = some (join (l.map String.toList) [' ']) := by
  apply bare_attr
  have : ∀ c ∈ join (l.map String.toList) [' '], c = ' ' ∨ (isXmlChar c = true ∧ c ≠ '\t' ∧ c ≠ '\n' ∧ c ≠ '\r') ∧ c ≠ '&' ∧ c ≠ '<' ∧ c ≠ '"' := by
    intro c hc
    rcases mem_join hc with hc | ⟨s, hs, hc⟩
    · left; simpa using hc
    · obtain ⟨n, hn, rfl⟩ := List.mem_map.1 hs
      exact Or.inr ⟨(h n hn).2.1.1 c hc, (h n hn).2.1.2 c hc⟩
  constructor
  · intro c hc
    rcases this c hc with rfl | h
    · decide
    · exact h.1
  · intro c hc
    rcases this c hc with rfl | h
    · decide
    · exact h.2

end Fimex.NcmlWrite
