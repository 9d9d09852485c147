import Verif.Grib.GrbmlLemmas
import Mathlib.Algebra.Order.Floor.Ring
import Mathlib.Tactic.Linarith
import Mathlib.Data.Rat.Floor

/-!
# Index files of GRIB files (C121): properties
-/

namespace Fimex.Grbml
open Fimex.GribGrid (Val Handle get getLong getText)

variable {F : Type}

/-! ## Writing and reading back -/

/-- Paths without characters which XML treats in its own way. -/
def Plain (url : String) : Prop := ∀ c ∈ url.toList, c ∉ ['&', '<', '"', '\n', '\t', '\r']

theorem rawAttr_plain (l : List Char) (h : ∀ c ∈ l, c ∉ ['&', '<', '"', '\n', '\t', '\r']) : rawAttr l = some l := by
  induction l with
  | nil => simp [rawAttr]
  | cons c r ih =>
    have hc := h c (by simp)
    have hr := ih fun x hx => h x (by simp [hx])
    simp only [List.mem_cons, List.not_mem_nil, or_false, not_or] at hc
    obtain ⟨c1, c2, c3, c4, c5, c6⟩ := hc
    rw [rawAttr]
    · rw [if_neg (by simp [c1, c2, c3]), if_neg (by simp [c4, c5, c6]), hr]
      rfl
    all_goals
      intros
      simp_all

theorem writeMessages_cons {E : Env F} {m : Msg F} {r : List (Msg F)} {es : List Event} (h : writeMessages E (m :: r) = .ok es) :
    ∃ e1 e2, writeMessage E m = .ok e1 ∧ writeMessages E r = .ok e2 ∧ es = e1 ++ e2 := by
  rw [writeMessages] at h
  obtain ⟨e1, h1, h⟩ := Res.bind_eq_ok.1 h
  obtain ⟨e2, h2, h⟩ := Res.bind_eq_ok.1 h
  simp only [Res.ok.injEq] at h
  exact ⟨e1, e2, h1, h2, h.symm⟩

theorem read_messages (E : Env F) (bad : Bool) (r : List Event) :
    ∀ (ms : List (Msg F)) (ix : Index F) (es : List Event), (∀ m ∈ ms, Keeps E m) → writeMessages E ms = .ok es →
      readNodes E bad ix none (es ++ r) = readNodes E bad { ix with msgs := ix.msgs ++ ms } none r
  | [], ix, es, _, h => by
    rw [writeMessages] at h
    simp only [Res.ok.injEq] at h
    subst h
    simp
  | m :: ms, ix, es, hk, h => by
    obtain ⟨e1, e2, h1, h2, h3⟩ := writeMessages_cons h
    subst h3
    rw [List.append_assoc, read_message E bad ix m (hk m (by simp)) e1 (e2 ++ r) h1,
      read_messages E bad r ms _ e2 (fun x hx => hk x (by simp [hx])) h2]
    simp

theorem writeIndex_ok {E : Env F} {ix : Index F} {d : Doc} (hp : Plain ix.url) (h : writeIndex E ix = .ok d) :
    ∃ es, writeMessages E ix.msgs = .ok es ∧
      d = { events := .elem "gribFileIndex" [("url", ix.url), ("xmlns", "http://www.met.no/schema/fimex/gribFileIndex")] :: .other :: (es ++ [.close "gribFileIndex"]), bad := false } := by
  unfold writeIndex at h
  obtain ⟨es, h1, h⟩ := Res.bind_eq_ok.1 h
  rw [rawAttr_plain _ hp] at h
  simp only [Res.ok.injEq, String.ofList_toList] at h
  exact ⟨es, h1, h.symm⟩

theorem initByGrbml_written (E : Env F) (ix : Index F) (d : Doc) (hp : Plain ix.url) (hm : ∀ m ∈ ix.msgs, Keeps E m)
    (hw : writeIndex E ix = .ok d) : initByGrbml E { url := "", msgs := [] } (some d) = (ix, .ok true) := by
  obtain ⟨es, h1, rfl⟩ := writeIndex_ok hp hw
  unfold initByGrbml
  simp only
  rw [readNodes, if_pos rfl]
  simp only [List.lookup]
  rw [show (("url" : String) == "url") = true by decide]
  simp only
  rw [readNodes, read_messages E false _ ix.msgs _ es hm h1, readNodes, if_pos rfl]
  simp

/-- **C121.** An index written to a file is read back as it was: all messages, in order, with all members. -/
theorem C121_index_kept (E : Env F) (ix : Index F) (d : Doc) (hp : Plain ix.url) (hm : ∀ m ∈ ix.msgs, Keeps E m)
    (hw : writeIndex E ix = .ok d) : openIndex E (some d) = .ok ix := by
  unfold openIndex
  rw [initByGrbml_written E ix d hp hm hw]

/-- All members are set. -/
def Complete (m : Msg F) : Prop :=
  (∃ n, m.size = some n) ∧ ∀ x ∈ [m.pos, m.edition, m.date, m.time, m.unit, m.stepStart, m.stepEnd, m.timeRange, m.statistic, m.levelType, m.levelNo], ∃ i, x = some i

/-- What can be written: editions 1 and 2, steps in a unit of the code table. -/
def Writable (m : Msg F) : Prop := (m.edition = some 1 ∨ m.edition = some 2) ∧ ∃ (n : ℕ) (t : String), m.unit = some (n : ℤ) ∧ (n, t) ∈ Tables.codes

theorem unitText_cases (u : ℤ) : (unitText u = .throws ∧ ¬ ∃ (n : ℕ) (t : String), u = n ∧ (n, t) ∈ Tables.codes) ∨ ∃ t, unitText u = .ok t ∧ ∃ n : ℕ, u = n ∧ (n, t) ∈ Tables.codes := by
  unfold unitText
  by_cases hn : u < 0
  · rw [if_pos hn]
    refine Or.inl ⟨rfl, ?_⟩
    rintro ⟨n, t, h, _⟩
    omega
  · rw [if_neg hn]
    have hs := fun t => (Tables.C55_codes_and_texts u.toNat t)
    cases h : Tables.stepUnitsToText u.toNat with
    | ok t => exact Or.inr ⟨t, rfl, u.toNat, by omega, (hs t).1.1 h⟩
    | throws =>
      refine Or.inl ⟨rfl, ?_⟩
      rintro ⟨n, t, h1, h2⟩
      have : u.toNat = n := by omega
      rw [← this] at h2
      rw [(hs t).1.2 h2] at h
      cases h
    | ub => exact absurd h (hs "").2.2.1

theorem writeMessage_cases (E : Env F) (m : Msg F) (hc : Complete m) :
    (Writable m ∧ ∃ es, writeMessage E m = .ok es) ∨ (¬ Writable m ∧ writeMessage E m = .throws) := by
  obtain ⟨⟨s, hs⟩, hc⟩ := hc
  simp only [List.mem_cons, List.not_mem_nil, or_false, forall_eq_or_imp, forall_eq] at hc
  obtain ⟨⟨p, hp⟩, ⟨ed, hed⟩, ⟨d, hd⟩, ⟨t, ht⟩, ⟨u, hu⟩, ⟨a, ha⟩, ⟨b, hb⟩, ⟨r, hr⟩, ⟨st, hst⟩, ⟨lt, hlt⟩, ⟨ln, hln⟩⟩ := hc
  unfold Writable writeMessage headElem levelElem timeElem idsElem
  simp only [hs, hp, hed, hd, ht, hu, ha, hb, hr, hst, hlt, hln, known, Res.ok_bind, Option.some.injEq]
  by_cases c : ed = 1 ∨ ed = 2
  · have hids : ∃ e, (if ed = 1 then Res.ok (Event.elem "grib1" [("indicatorOfParameter", showInt m.ids.1), ("gribTablesVersionNo", showInt m.ids.2.1), ("identificationOfOriginatingGeneratingCentre", showInt m.ids.2.2)])
      else if ed = 2 then .ok (.elem "grib2" [("parameterNumber", showInt m.ids.1), ("parameterCategory", showInt m.ids.2.1), ("discipline", showInt m.ids.2.2)]) else .throws) = .ok e := by
      rcases c with c | c
      · rw [if_pos c]; exact ⟨_, rfl⟩
      · rw [if_neg (by omega), if_pos c]; exact ⟨_, rfl⟩
    obtain ⟨e, he⟩ := hids
    rw [he]
    simp only [Res.ok_bind]
    rcases unitText_cases u with ⟨h1, h2⟩ | ⟨tx, h1, n, h2, h3⟩
    · right
      rw [h1]
      exact ⟨fun h => h2 h.2, rfl⟩
    · left
      rw [h1]
      exact ⟨⟨c, n, tx, h2, h3⟩, _, rfl⟩
  · right
    rw [if_neg (by omega), if_neg (by omega)]
    exact ⟨fun h => c h.1, rfl⟩

theorem writeMessages_cases (E : Env F) : ∀ ms : List (Msg F), (∀ m ∈ ms, Complete m) →
    ((∀ m ∈ ms, Writable m) ∧ ∃ es, writeMessages E ms = .ok es) ∨ ((∃ m ∈ ms, ¬ Writable m) ∧ writeMessages E ms = .throws)
  | [], _ => Or.inl ⟨by simp, [], rfl⟩
  | m :: ms, h => by
    rw [writeMessages]
    rcases writeMessage_cases E m (h m (by simp)) with ⟨h1, es, h2⟩ | ⟨h1, h2⟩
    · rw [h2]
      rcases writeMessages_cases E ms fun x hx => h x (by simp [hx]) with ⟨h3, es', h4⟩ | ⟨⟨x, hx, h3⟩, h4⟩
      · rw [h4]
        left
        refine ⟨fun x hx => ?_, _, rfl⟩
        rcases List.mem_cons.1 hx with e | e
        · rw [e]; exact h1
        · exact h3 x e
      · rw [h4]
        exact Or.inr ⟨⟨x, by simp [hx], h3⟩, rfl⟩
    · rw [h2]
      exact Or.inr ⟨⟨m, by simp, h1⟩, rfl⟩

/-- **C121.** An index is written exactly if each of its messages can be; otherwise an exception is raised: one message in an unknown unit of steps prevents the index. -/
theorem C121_written (E : Env F) (ix : Index F) (hc : ∀ m ∈ ix.msgs, Complete m) :
    (writeIndex E ix = .throws ↔ ∃ m ∈ ix.msgs, ¬ Writable m) ∧ ((∃ d, writeIndex E ix = .ok d) ↔ ∀ m ∈ ix.msgs, Writable m) := by
  unfold writeIndex
  rcases writeMessages_cases E ix.msgs hc with ⟨h1, es, h2⟩ | ⟨⟨x, hx, h1⟩, h2⟩
  · rw [h2]
    simp only [Res.ok_bind]
    cases rawAttr ix.url.toList with
    | none => exact ⟨⟨(fun h => by cases h), fun ⟨x, hx, h3⟩ => absurd (h1 x hx) h3⟩, ⟨fun _ => h1, fun _ => ⟨_, rfl⟩⟩⟩
    | some u => exact ⟨⟨(fun h => by cases h), fun ⟨x, hx, h3⟩ => absurd (h1 x hx) h3⟩, ⟨fun _ => h1, fun _ => ⟨_, rfl⟩⟩⟩
  · rw [h2]
    exact ⟨⟨fun _ => ⟨x, hx, h1⟩, fun _ => rfl⟩, ⟨(fun ⟨d, h⟩ => by cases h), fun h => absurd (h x hx) h1⟩⟩

/-- **C121.** A message of an index file with its path, position, length and parameters only is read without complaint; the members never set are used by the writer. -/
theorem C121_uninitialised (E : Env F) (url : String) (h : url ≠ "") (as : List (String × String)) :
    ∃ ix : Index F, openIndex E (some { events := [.elem "gribFileIndex" [("url", url)], .elem "gribMessage" [("url", url), ("seekPos", "0"), ("messageSize", "20")], .elem "grib2" as, .close "gribMessage", .close "gribFileIndex"], bad := false }) = .ok ix ∧
      ix.msgs.length = 1 ∧ writeIndex E ix = .ub := by
  have hhead : readHead E [("url", url), ("seekPos", "0"), ("messageSize", "20")] = .ok { noMsg E with url := url, pos := some (atol "0"), size := some (Extractor.toSizeT (atol "20")) } := by
    unfold readHead
    simp only [List.foldlM_cons, List.foldlM_nil, headAttr, String.reduceEq, if_true, if_false, h, Res.ok_bind]
    rfl
  refine ⟨{ url := url, msgs := [{ noMsg E with url := url, pos := some (atol "0"), size := some (Extractor.toSizeT (atol "20")), edition := some 2, ids := as.foldl (idsAttr "parameterNumber" "parameterCategory" "discipline") (0, 0, 0) }] }, ?_, rfl, ?_⟩
  · unfold openIndex initByGrbml
    simp only
    rw [readNodes, if_pos rfl]
    simp only [List.lookup]
    rw [show (("url" : String) == "url") = true by decide]
    simp only
    rw [readNodes, if_neg (by decide), if_pos rfl, hhead]
    simp only
    rw [readNodes, show readElem E { noMsg E with url := url, pos := some (atol "0"), size := some (Extractor.toSizeT (atol "20")) } "grib2" as = .ok { noMsg E with url := url, pos := some (atol "0"), size := some (Extractor.toSizeT (atol "20")), edition := some 2, ids := as.foldl (idsAttr "parameterNumber" "parameterCategory" "discipline") (0, 0, 0) } by
      unfold readElem
      simp only [String.reduceEq, if_true, if_false]]
    simp only
    rw [readNodes, if_pos rfl, if_neg (by simp [h]), readNodes, if_pos rfl]
    rfl
  · unfold writeIndex
    simp only [writeMessages, writeMessage, headElem, idsElem, levelElem, noMsg, known, Res.ok_bind, Res.ub_bind]
    rw [if_neg (by decide), if_pos trivial]
    rfl

/-! ## Paths -/

theorem rawAttr_bad (l : List Char) (h : '<' ∈ l ∨ '"' ∈ l) : rawAttr l = none := by
  induction l using rawAttr.induct with
  | case1 => simp at h
  | case2 r ih => rw [rawAttr, ih (by simpa using h)]; rfl
  | case3 r ih => rw [rawAttr, ih (by simpa using h)]; rfl
  | case4 r ih => rw [rawAttr, ih (by simpa using h)]; rfl
  | case5 r ih => rw [rawAttr, ih (by simpa using h)]; rfl
  | case6 r ih => rw [rawAttr, ih (by simpa using h)]; rfl
  | case7 c r _ _ _ _ _ hc =>
    rw [rawAttr, if_pos hc]
    all_goals assumption
  | case8 c r _ _ _ _ _ hc ih =>
    rw [rawAttr, if_neg hc, ih ?_]
    · rfl
    · simp only [not_or] at hc
      rcases h with h | h
      · rcases List.mem_cons.1 h with e | e
        · exact absurd e.symm hc.2.1
        · exact Or.inl e
      · rcases List.mem_cons.1 h with e | e
        · exact absurd e.symm hc.2.2
        · exact Or.inr e
    all_goals assumption

/-- **C121.** The path of the index is not escaped: with a quote or `<` in it, the index is written without complaint and can never be read. -/
theorem C121_path_not_escaped (E : Env F) (ix : Index F) (d : Doc) (h : '<' ∈ ix.url.toList ∨ '"' ∈ ix.url.toList) (hw : writeIndex E ix = .ok d) :
    openIndex E (some d) = .throws := by
  unfold writeIndex at hw
  obtain ⟨es, h1, hw⟩ := Res.bind_eq_ok.1 hw
  rw [rawAttr_bad _ h] at hw
  simp only [Res.ok.injEq] at hw
  subst hw
  unfold openIndex initByGrbml
  simp only [readNodes]
  rfl

/-- **C121.** The same with an ampersand; escapes in the path are undone. -/
theorem C121_ampersand (E : Env F) :
    writeIndex E { url := "a&b.grb", msgs := [] } = .ok { events := [], bad := true } ∧ openIndex E (some { events := [], bad := true }) = .throws ∧
    ∃ d, writeIndex E { url := "a&amp;b.grb", msgs := [] } = .ok d ∧ openIndex E (some d) = .ok { url := "a&b.grb", msgs := [] } := by
  refine ⟨?_, ?_, ?_⟩
  · unfold writeIndex
    simp only [writeMessages, Res.ok_bind]
    rw [show rawAttr ("a&b.grb" : String).toList = none by decide +kernel]
  · unfold openIndex initByGrbml
    simp only [readNodes]
    rfl
  · unfold writeIndex
    simp only [writeMessages, Res.ok_bind]
    rw [show rawAttr ("a&amp;b.grb" : String).toList = some ("a&b.grb" : String).toList by decide +kernel]
    refine ⟨_, rfl, ?_⟩
    unfold openIndex initByGrbml
    simp only [readNodes, List.nil_append, List.lookup, String.ofList_toList, if_true]
    rw [show (("url" : String) == "url") = true by decide]

/-! ## Scanning files -/

/-- A whole message: its head tells its length. -/
def Whole (b : List ℕ) : Prop :=
  16 ≤ b.length ∧ ((b[7]? = some 1 ∧ bigEndian ((b.drop 4).take 3) = b.length) ∨ (b[7]? = some 2 ∧ bigEndian ((b.drop 8).take 8) = b.length))

theorem sizeAt_whole (pre b rest : List ℕ) (h : Whole b) : sizeAt (pre ++ (b ++ rest)) pre.length = .ok b.length := by
  obtain ⟨h1, h2⟩ := h
  unfold sizeAt
  rw [if_neg (by simp; omega)]
  have hi : (pre ++ (b ++ rest))[pre.length + 7]? = b[7]? := by
    rw [List.getElem?_append_right (by omega), Nat.add_sub_cancel_left, List.getElem?_append_left (by omega)]
  have hd : ∀ k n, k + n ≤ 16 → ((pre ++ (b ++ rest)).drop (pre.length + k)).take n = (b.drop k).take n := by
    intro k n hk
    rw [← List.drop_drop, List.drop_left, List.drop_append_of_le_length (by omega), List.take_append_of_le_length (by simp; omega)]
  rw [hi]
  rcases h2 with ⟨e, h2⟩ | ⟨e, h2⟩
  · rw [e]
    simp only
    rw [hd 4 3 (by omega), h2]
  · rw [e]
    simp only
    rw [hd 8 8 (by omega), h2]

/-- What the messages of a file give, from a position on. -/
def collect (make : List ℕ → ℕ → ℕ → Out (Msg F)) : ℕ → List (List ℕ) → List (Msg F) × Res Unit
  | _, [] => ([], .ok ())
  | off, b :: bs =>
    match make b off b.length with
    | .made m => (m :: (collect make (off + b.length) bs).1, (collect make (off + b.length) bs).2)
    | .skipped => collect make (off + b.length) bs
    | .refused => ([], .throws)
    | .undefined => ([], .ub)

theorem scan_blocks (make : List ℕ → ℕ → ℕ → Out (Msg F)) :
    ∀ (bs : List (List ℕ)) (pre : List ℕ) (steps : ℕ) (ms : List (Msg F)), (∀ b ∈ bs, Whole b) → bs.length < steps →
      scan make (pre ++ bs.flatten) steps pre.length ms = (ms ++ (collect make pre.length bs).1, (collect make pre.length bs).2)
  | [], pre, steps, ms, _, hs => by
    obtain ⟨k, rfl⟩ : ∃ k, steps = k + 1 := ⟨steps - 1, by simp at hs; omega⟩
    rw [scan, if_neg (by simp)]
    simp [collect]
  | b :: bs, pre, steps, ms, hw, hs => by
    obtain ⟨k, rfl⟩ : ∃ k, steps = k + 1 := ⟨steps - 1, by simp at hs; omega⟩
    have hb := hw b (by simp)
    have h16 := hb.1
    rw [List.flatten_cons, scan, if_pos (by simp; omega), sizeAt_whole pre b bs.flatten hb]
    simp only
    rw [if_neg (by simp), List.drop_left, List.take_left, collect]
    have ih := fun ms' => scan_blocks make bs (pre ++ b) k ms' (fun x hx => hw x (by simp [hx])) (by simp at hs; omega)
    simp only [List.append_assoc, List.length_append] at ih
    cases make b pre.length b.length with
    | made m =>
      simp only
      rw [ih]
      simp
    | skipped => simp only; rw [ih]
    | refused => simp
    | undefined => simp

theorem flatten_length_ge (bs : List (List ℕ)) (h : ∀ b ∈ bs, Whole b) : 16 * bs.length ≤ bs.flatten.length := by
  induction bs with
  | nil => simp
  | cons b bs ih =>
    have h1 := (h b (by simp)).1
    have h2 := ih fun x hx => h x (by simp [hx])
    rw [List.flatten_cons, List.length_append, List.length_cons]
    omega

/-- Messages with the positions at which they begin. -/
def placed (bs : List (List ℕ)) : List (ℕ × List ℕ) := bs.zipIdx.map fun p => ((bs.take p.2).flatten.length, p.1)

/-- What a message gives, if anything. -/
def kept (o : Out (Msg F)) : Option (Msg F) :=
  match o with
  | .made m => some m
  | _ => none

theorem placed_from (bs : List (List ℕ)) : ∀ (pre : List (List ℕ)),
    ((bs.zipIdx pre.length).map fun p => (((pre ++ bs).take p.2).flatten.length, p.1)) = 
    match bs with
    | [] => []
    | b :: r => (pre.flatten.length, b) :: ((r.zipIdx (pre ++ [b]).length).map fun p => (((pre ++ [b] ++ r).take p.2).flatten.length, p.1)) := by
  intro pre
  cases bs with
  | nil => rfl
  | cons b r => simp [List.zipIdx_cons]

theorem collect_placed (make : List ℕ → ℕ → ℕ → Out (Msg F)) :
    ∀ (bs pre : List (List ℕ)), (∀ p ∈ ((bs.zipIdx pre.length).map fun p => (((pre ++ bs).take p.2).flatten.length, p.1)), make p.2 p.1 p.2.length ≠ .refused ∧ make p.2 p.1 p.2.length ≠ .undefined) →
      collect make pre.flatten.length bs = (((bs.zipIdx pre.length).map fun p => (((pre ++ bs).take p.2).flatten.length, p.1)).filterMap fun p => kept (make p.2 p.1 p.2.length), .ok ())
  | [], pre, _ => by simp [collect]
  | b :: bs, pre, h => by
    rw [placed_from (b :: bs) pre] at h ⊢
    simp only at h ⊢
    have h0 := h (pre.flatten.length, b) (by simp)
    have ih := collect_placed make bs (pre ++ [b]) (fun p hp => h p (by simp only [List.mem_cons]; exact Or.inr hp))
    rw [List.flatten_append, List.length_append, show ([b] : List (List ℕ)).flatten = b by simp] at ih
    rw [collect, List.filterMap_cons]
    dsimp only at h0 ⊢
    cases hm : make b pre.flatten.length b.length with
    | made m => simp only [kept]; rw [ih]; rfl
    | skipped => simp only [kept]; rw [ih]; rfl
    | refused => exact absurd hm h0.1
    | undefined => exact absurd hm h0.2

/-- **C121.** The messages of a file of whole messages are found one after the other, each at the sum of the lengths before it; those which raise `CDMException` are left out. -/
theorem C121_all_messages (make : List ℕ → ℕ → ℕ → Out (Msg F)) (bs : List (List ℕ)) (ms : List (Msg F)) (hw : ∀ b ∈ bs, Whole b)
    (hm : ∀ p ∈ placed bs, make p.2 p.1 p.2.length ≠ .refused ∧ make p.2 p.1 p.2.length ≠ .undefined) :
    scan make bs.flatten (bs.flatten.length + 1) 0 ms = (ms ++ (placed bs).filterMap fun p => kept (make p.2 p.1 p.2.length), .ok ()) := by
  have h := scan_blocks make bs [] (bs.flatten.length + 1) ms hw (by have := flatten_length_ge bs hw; omega)
  have h2 := collect_placed make bs [] hm
  simp only [List.nil_append, List.length_nil, List.flatten_nil] at h h2
  rw [h, h2]
  rfl

/-- **C121.** Messages start where the lengths before them end. -/
theorem C121_positions (bs : List (List ℕ)) (i : ℕ) (b : List ℕ) (h : bs[i]? = some b) : (placed bs)[i]? = some (((bs.take i).map List.length).sum, b) := by
  unfold placed
  rw [List.getElem?_map, List.getElem?_zipIdx, h]
  simp

theorem scan_append (make : List ℕ → ℕ → ℕ → Out (Msg F)) (bytes : List ℕ) :
    ∀ (steps off : ℕ) (ms : List (Msg F)), scan make bytes steps off ms = (ms ++ (scan make bytes steps off []).1, (scan make bytes steps off []).2)
  | 0, off, ms => by simp [scan]
  | steps + 1, off, ms => by
    rw [scan, scan]
    by_cases c : off < bytes.length
    · rw [if_pos c, if_pos c]
      cases sizeAt bytes off with
      | throws => simp
      | ub => simp
      | ok n =>
        simp only
        by_cases c2 : bytes.length < off + n
        · rw [if_pos c2, if_pos c2]; simp
        · rw [if_neg c2, if_neg c2]
          cases make ((bytes.drop off).take n) off n with
          | made m =>
            simp only
            rw [scan_append make bytes steps (off + n) (ms ++ [m]), scan_append make bytes steps (off + n) ([] ++ [m])]
            simp
          | skipped => exact scan_append make bytes steps (off + n) ms
          | refused => simp
          | undefined => simp
    · rw [if_neg c, if_neg c]; simp

theorem scan_all (make : List ℕ → ℕ → ℕ → Out (Msg F)) (bytes : List ℕ) (P : Msg F → Prop) (hP : ∀ b p n m, make b p n = .made m → p < bytes.length → p + n ≤ bytes.length → P m) :
    ∀ (steps off : ℕ) (ms : List (Msg F)), (∀ m ∈ ms, P m) → ∀ m ∈ (scan make bytes steps off ms).1, P m
  | 0, off, ms, h => by simpa [scan] using h
  | steps + 1, off, ms, h => by
    rw [scan]
    by_cases c : off < bytes.length
    · rw [if_pos c]
      cases sizeAt bytes off with
      | throws => simpa using h
      | ub => simpa using h
      | ok n =>
        simp only
        by_cases c2 : bytes.length < off + n
        · rw [if_pos c2]; simpa using h
        · rw [if_neg c2]
          cases hm : make ((bytes.drop off).take n) off n with
          | made m =>
            simp only
            refine scan_all make bytes P hP steps (off + n) (ms ++ [m]) fun x hx => ?_
            rcases List.mem_append.1 hx with e | e
            · exact h x e
            · rw [List.mem_singleton.1 e]
              exact hP _ _ _ m hm c (by omega)
          | skipped => exact scan_all make bytes P hP steps (off + n) ms h
          | refused => simpa using h
          | undefined => simpa using h
    · rw [if_neg c]; simpa using h

theorem out_bind {A B : Type} {x : Out A} {f : A → Out B} {b : B} (h : (x >>= f) = .made b) : ∃ a, x = .made a ∧ f a = .made b := by
  cases x with
  | made a => exact ⟨a, rfl, h⟩
  | skipped => cases h
  | refused => cases h
  | undefined => cases h

theorem must_ok {A : Type} {r : Res A} {a : A} (h : must r = .made a) : r = .ok a := by
  cases r with
  | ok b => simp only [must, Out.made.injEq] at h; rw [h]
  | throws => cases h
  | ub => cases h

/-- What `fromHandle` has read when it made a message. -/
theorem fromHandle_made {E : Env F} {earth : String} {members : List (String → Bool)} {extra : List String} {url : String} {pos size : ℕ} {hd : Option (Handle F)} {m : Msg F}
    (h : fromHandle E earth members extra url pos size hd = .made m) :
    ∃ hh h' ed ids name short others lt ln t e typ g, hd = some hh ∧ getLong hh "edition" = .ok ed ∧ readIds hh ed = .made ids ∧ readName hh "name" "," ids = .made name ∧
      readName hh "shortName" "_" ids = .made short ∧ readExtra hh extra [] = .made others ∧ getLong hh (if ed = 1 then "levtype" else "typeOfFirstFixedSurface") = .ok lt ∧
      getLong hh "level" = .ok ln ∧ withUnit E hh = .made h' ∧ readTimes h' = .made t ∧ ensembleOf h' members url = .made e ∧ getText h' "typeOfGrid" = .ok typ ∧
      readGridOf E earth ed typ h' = .made g ∧
      m = { url := url, pos := some (pos : ℤ), size := some size, name := name, short := short, ids := ids, edition := some ed, date := some t.date, time := some t.time, unit := some t.unit, stepType := t.stepType, stepStart := some t.start, stepEnd := some t.stop, timeRange := some t.range, statistic := some t.statistic, levelType := some lt, levelNo := some ln, member := (clustersOf h' e).1, total := (clustersOf h' e).2, others := others, gridType := typ, grid := g } := by
  unfold fromHandle at h
  cases hd with
  | none => cases h
  | some hh =>
    simp only at h
    obtain ⟨ed, h1, h⟩ := out_bind h
    obtain ⟨ids, h2, h⟩ := out_bind h
    obtain ⟨name, h3, h⟩ := out_bind h
    obtain ⟨short, h4, h⟩ := out_bind h
    obtain ⟨others, h5, h⟩ := out_bind h
    obtain ⟨lt, h6, h⟩ := out_bind h
    obtain ⟨ln, h7, h⟩ := out_bind h
    obtain ⟨h', h8, h⟩ := out_bind h
    obtain ⟨t, h9, h⟩ := out_bind h
    obtain ⟨e, h10, h⟩ := out_bind h
    obtain ⟨typ, h11, h⟩ := out_bind h
    obtain ⟨g, h12, h⟩ := out_bind h
    simp only [Out.made.injEq] at h
    exact ⟨hh, h', ed, ids, name, short, others, lt, ln, t, e, typ, g, rfl, must_ok h1, h2, h3, h4, h5, must_ok h6, must_ok h7, h8, h9, h10, must_ok h11, h12, h.symm⟩

/-! ## Appending to an index -/

/-- **C121.** Appending a file to an index written before: the messages of other files stay, in order; those of this file are replaced by what the file holds now. -/
theorem C121_append (E : Env F) (lib : Lib F) (members : List (String → Bool)) (o : Options) (url : String) (bytes : List ℕ) (earth : String) (ix new : Index F) (d : Doc)
    (hp : Plain ix.url) (hm : ∀ m ∈ ix.msgs, Keeps E m) (hw : writeIndex E ix = .ok d) (hnew : (init E lib members o url bytes none earth).2 = .ok new) :
    (init E lib members o url bytes (some (some d)) earth).2 = .ok { url := url, msgs := ix.msgs.filter (fun m => m.url != url) ++ new.msgs } ∧ (∀ m ∈ new.msgs, m.url = url) ∧ new.url = url := by
  unfold init at hnew ⊢
  simp only [initByGrbml_written E ix d hp hm hw, List.filter_nil] at hnew ⊢
  rw [scan_append]
  have hall := scan_all (fun b p n => fromHandle E (o.earth.getD earth) members o.extra url p n (lib b)) bytes (fun m => m.url = url) ?_ (bytes.length + 1) 0 [] (by simp)
  · revert hnew hall
    generalize scan (fun b p n => fromHandle E (o.earth.getD earth) members o.extra url p n (lib b)) bytes (bytes.length + 1) 0 [] = sc
    obtain ⟨ms, out⟩ := sc
    intro hnew hall
    cases out with
    | ok u =>
      simp only [afterScan, Res.ok.injEq] at hnew
      subst hnew
      exact ⟨rfl, hall, rfl⟩
    | throws => cases hnew
    | ub => cases hnew
  · intro b p n m h _ _
    obtain ⟨hh, h', ed, ids, name, short, others, lt, ln, t, e, typ, g, _, _, _, _, _, _, _, _, _, _, _, _, _, rfl⟩ := fromHandle_made h
    rfl

/-- **C121.** An index which cannot be read is taken for an empty one: appending to it succeeds and drops all its messages. -/
theorem C121_unreadable_index_dropped (E : Env F) (lib : Lib F) (members : List (String → Bool)) (o : Options) (url : String) (bytes : List ℕ) (earth : String) (ix : Index F) (d : Doc)
    (h : '<' ∈ ix.url.toList ∨ '"' ∈ ix.url.toList) (hw : writeIndex E ix = .ok d) :
    init E lib members o url bytes (some (some d)) earth = init E lib members o url bytes none earth := by
  unfold writeIndex at hw
  obtain ⟨es, h1, hw⟩ := Res.bind_eq_ok.1 hw
  rw [rawAttr_bad _ h] at hw
  simp only [Res.ok.injEq] at hw
  subst hw
  unfold init initByGrbml
  simp only [readNodes]

/-- **C121.** The same for an index which was cut: what follows the cut is dropped without complaint. -/
theorem C121_cut_index (E : Env F) (lib : Lib F) (members : List (String → Bool)) (o : Options) (url : String) (bytes : List ℕ) (earth : String) (ix new : Index F) (es : List Event)
    (hm : ∀ m ∈ ix.msgs, Keeps E m) (hw : writeMessages E ix.msgs = .ok es) (hnew : (init E lib members o url bytes none earth).2 = .ok new) :
    (init E lib members o url bytes (some (some { events := .elem "gribFileIndex" [("url", ix.url)] :: es, bad := true })) earth).2 = .ok { url := url, msgs := ix.msgs.filter (fun m => m.url != url) ++ new.msgs } := by
  have hr : initByGrbml E { url := "", msgs := [] } (some { events := .elem "gribFileIndex" [("url", ix.url)] :: es, bad := true }) = (ix, .ok false) := by
    unfold initByGrbml
    simp only
    rw [readNodes, if_pos rfl]
    simp only [List.lookup]
    rw [show (("url" : String) == "url") = true by decide]
    simp only
    have := read_messages E true [] ix.msgs { url := ix.url, msgs := [] } es hm hw
    rw [List.append_nil] at this
    rw [this, readNodes]
    simp
  unfold init at hnew ⊢
  simp only [hr, List.filter_nil] at hnew ⊢
  rw [scan_append]
  revert hnew
  generalize scan (fun b p n => fromHandle E (o.earth.getD earth) members o.extra url p n (lib b)) bytes (bytes.length + 1) 0 [] = sc
  obtain ⟨ms, out⟩ := sc
  intro hnew
  cases out with
  | ok u =>
    simp only [afterScan, Res.ok.injEq] at hnew
    subst hnew
    rfl
  | throws => cases hnew
  | ub => cases hnew

/-- **C121.** After whole messages which give no exception, a rest shorter than a head makes the whole file fail. -/
theorem C121_short_rest (make : List ℕ → ℕ → ℕ → Out (Msg F)) :
    ∀ (bs : List (List ℕ)) (pre rest : List ℕ) (steps : ℕ) (ms : List (Msg F)), (∀ b ∈ bs, Whole b) → (∀ b p n, make b p n ≠ .refused ∧ make b p n ≠ .undefined) →
      0 < rest.length → rest.length < 16 → bs.length < steps → (scan make (pre ++ (bs.flatten ++ rest)) steps pre.length ms).2 = .throws
  | [], pre, rest, steps, ms, _, _, h1, h2, hs => by
    obtain ⟨k, rfl⟩ : ∃ k, steps = k + 1 := ⟨steps - 1, by simp at hs; omega⟩
    rw [scan, if_pos (by simpa using h1), sizeAt, if_pos (by simp; omega)]
  | b :: bs, pre, rest, steps, ms, hw, hm, h1, h2, hs => by
    obtain ⟨k, rfl⟩ : ∃ k, steps = k + 1 := ⟨steps - 1, by simp at hs; omega⟩
    have hb := hw b (by simp)
    have h16 := hb.1
    rw [List.flatten_cons, List.append_assoc, scan, if_pos (by simp; omega), sizeAt_whole pre b (bs.flatten ++ rest) hb]
    simp only
    rw [if_neg (by simp), List.drop_left, List.take_left]
    have ih := fun ms' => C121_short_rest make bs (pre ++ b) rest k ms' (fun x hx => hw x (by simp [hx])) hm h1 h2 (by simp at hs; omega)
    simp only [List.append_assoc, List.length_append] at ih
    cases hk : make b pre.length b.length with
    | made m => exact ih _
    | skipped => exact ih _
    | refused => exact absurd hk (hm _ _ _).1
    | undefined => exact absurd hk (hm _ _ _).2

/-- **C121.** A head which tells another edition than 1 and 2 makes the length depend on uninitialised variables. -/
theorem C121_other_edition (make : List ℕ → ℕ → ℕ → Out (Msg F)) (bytes : List ℕ) (v steps : ℕ) (ms : List (Msg F)) (h16 : 16 ≤ bytes.length) (hv : bytes[7]? = some v) (h1 : v ≠ 1) (h2 : v ≠ 2) :
    scan make bytes (steps + 1) 0 ms = (ms, .ub) := by
  rw [scan, if_pos (by omega), sizeAt, if_neg (by omega), Nat.zero_add, hv]
  split
  · rename_i e
    split at e
    · rename_i e'; simp only [Option.some.injEq] at e'; omega
    · rename_i e'; simp only [Option.some.injEq] at e'; omega
    · cases e
  · rfl
  · rename_i n e
    split at e
    · rename_i e'; simp only [Option.some.injEq] at e'; omega
    · rename_i e'; simp only [Option.some.injEq] at e'; omega
    · cases e

/-! ## Indexes of files are kept -/

/-- What is asked of the library and the readers of grids: numbers are of type `long`, parameters of type `int`, ensembles have members, and grids are kept. -/
structure LibOk (E : Env F) (h : Handle F) : Prop where
  longs : ∀ k i, get h k = some (.long i) → InLong i
  ids : ∀ k ∈ ["indicatorOfParameter", "gribTablesVersionNo", "centre", "parameterNumber", "parameterCategory", "discipline"], ∀ i, get h k = some (.long i) → InInt i
  totals : ∀ k ∈ ["numberOfForecastsInEnsemble", "totalNumberOfClusters"], ∀ i, get h k = some (.long i) → 0 < i
  grids : ∀ earth ed typ g, E.grid earth ed typ h = .made g → GridKeeps E ed g

theorem getLong_get {h : Handle F} {k : String} {i : ℤ} (hg : getLong h k = .ok i) : get h k = some (.long i) := by
  unfold getLong at hg
  split at hg
  · rename_i j e
    simp only [Res.ok.injEq] at hg
    rw [e, hg]
  · cases hg

theorem readIds_int {E : Env F} {h : Handle F} (hl : LibOk E h) {ed : ℤ} {ids : ℤ × ℤ × ℤ} (hr : readIds h ed = .made ids) : InInt ids.1 ∧ InInt ids.2.1 ∧ InInt ids.2.2 := by
  have key : ∀ k ∈ ["indicatorOfParameter", "gribTablesVersionNo", "centre", "parameterNumber", "parameterCategory", "discipline"], ∀ i, must (getLong h k) = .made i → InInt i :=
    fun k hk i hi => hl.ids k hk i (getLong_get (must_ok hi))
  unfold readIds at hr
  by_cases c1 : ed = 1
  · rw [if_pos c1] at hr
    obtain ⟨a, h1, hr⟩ := out_bind hr
    obtain ⟨b, h2, hr⟩ := out_bind hr
    obtain ⟨c, h3, hr⟩ := out_bind hr
    have hx : (a, b, c) = ids := by
      by_cases c2 : a = 254
      · rw [if_pos c2] at hr
        obtain ⟨l, h4, hr⟩ := out_bind hr
        by_cases c3 : l = 2147483647
        · rw [if_pos c3] at hr; cases hr
        · rw [if_neg c3] at hr
          simpa using hr
      · rw [if_neg c2] at hr
        simpa using hr
    subst hx
    exact ⟨key _ (by simp) a h1, key _ (by simp) b h2, key _ (by simp) c h3⟩
  · rw [if_neg c1] at hr
    by_cases c2 : ed = 2
    · rw [if_pos c2] at hr
      obtain ⟨a, h1, hr⟩ := out_bind hr
      obtain ⟨b, h2, hr⟩ := out_bind hr
      obtain ⟨c, h3, hr⟩ := out_bind hr
      simp only [Out.made.injEq] at hr
      subst hr
      exact ⟨key _ (by simp) a h1, key _ (by simp) b h2, key _ (by simp) c h3⟩
    · rw [if_neg c2] at hr
      cases hr

theorem readExtra_ok {E : Env F} {h : Handle F} (hl : LibOk E h) :
    ∀ (ks : List String) (l r : List (String × ℤ)), readExtra h ks l = .made r → Felt.Sorted Felt.nameLess l → (∀ p ∈ l, InLong p.2) → Felt.Sorted Felt.nameLess r ∧ ∀ p ∈ r, InLong p.2
  | [], l, r, hr, h1, h2 => by
    simp only [readExtra, Out.made.injEq] at hr
    subst hr
    exact ⟨h1, h2⟩
  | k :: ks, l, r, hr, h1, h2 => by
    rw [readExtra] at hr
    cases hg : get h k with
    | none =>
      rw [hg] at hr
      exact readExtra_ok hl ks l r hr h1 h2
    | some v =>
      rw [hg] at hr
      cases v with
      | long i =>
        simp only at hr
        refine readExtra_ok hl ks _ r hr (Felt.sorted_put Felt.nameLess_total k i h1) fun p hp => ?_
        rcases Felt.mem_put Felt.nameLess_total hp with e | e
        · rw [e]; exact hl.longs k i hg
        · exact h2 p e
      | dbl x => cases hr
      | text x => cases hr

theorem readTimes_ok {E : Env F} {h : Handle F} (hl : LibOk E h) {t : Times} (hr : readTimes h = .made t) :
    InLong t.date ∧ InLong t.time ∧ InLong t.start ∧ InLong t.stop ∧ InLong t.range ∧ InLong t.statistic := by
  have key : ∀ k i, must (getLong h k) = .made i → InLong i := fun k i hi => hl.longs k i (getLong_get (must_ok hi))
  unfold readTimes at hr
  obtain ⟨a1, h1, hr⟩ := out_bind hr
  obtain ⟨a2, h2, hr⟩ := out_bind hr
  obtain ⟨a3, h3, hr⟩ := out_bind hr
  obtain ⟨a4, h4, hr⟩ := out_bind hr
  obtain ⟨a5, h5, hr⟩ := out_bind hr
  obtain ⟨a6, h6, hr⟩ := out_bind hr
  obtain ⟨a7, h7, hr⟩ := out_bind hr
  obtain ⟨a8, h8, hr⟩ := out_bind hr
  simp only [Out.made.injEq] at hr
  subst hr
  refine ⟨key _ _ h3, key _ _ h4, key _ _ h7, key _ _ h8, key _ _ h5, ?_⟩
  unfold getOr at h6
  split at h6
  · simp only [Out.made.injEq] at h6
    subst h6
    simp [InLong]
  · rename_i i e
    simp only [Out.made.injEq] at h6
    subst h6
    exact hl.longs _ _ e
  · cases h6

theorem memberOf_ok (members : List (String → Bool)) (url : String) (hn : members.length < 2 ^ 63) :
    (0 < (memberOf members url).2 ∧ InLong (memberOf members url).2 ∧ InLong (memberOf members url).1) ∨ memberOf members url = (0, 0) := by
  unfold memberOf
  cases hf : members.findIdx? fun p => p url with
  | none => exact Or.inr rfl
  | some i =>
    left
    have hi : i < members.length := by
      obtain ⟨h, _⟩ := List.findIdx?_eq_some_iff_getElem.1 hf
      exact h
    simp only [InLong]
    omega

theorem ensemble_ok {E : Env F} {h : Handle F} (hl : LibOk E h) {members : List (String → Bool)} {url : String} {e : ℤ × ℤ} (hn : members.length < 2 ^ 63) (hr : ensembleOf h members url = .made e) :
    (0 < (clustersOf h e).2 ∧ InLong (clustersOf h e).2 ∧ InLong (clustersOf h e).1) ∨ ((clustersOf h e).2 = 0 ∧ (clustersOf h e).1 = 0) := by
  have he : (0 < e.2 ∧ InLong e.2 ∧ InLong e.1) ∨ e = (0, 0) := by
    unfold ensembleOf at hr
    split at hr
    · rename_i t ht
      split at hr
      · simp only [Out.made.injEq] at hr
        exact Or.inr hr.symm
      · rename_i p hp
        simp only [Out.made.injEq] at hr
        subst hr
        exact Or.inl ⟨hl.totals _ (by simp) t ht, hl.longs _ _ ht, hl.longs _ _ hp⟩
      · cases hr
    · simp only [Out.made.injEq] at hr
      subst hr
      exact memberOf_ok members url hn
    · cases hr
  unfold clustersOf
  rcases he with ⟨h1, h2, h3⟩ | he
  · rw [if_neg (by omega)]
    exact Or.inl ⟨h1, h2, h3⟩
  · subst he
    rw [if_pos rfl]
    split
    · rename_i t ht
      have h1 := hl.totals _ (by simp) t ht
      have h2 := hl.longs _ _ ht
      split
      · rename_i p hp
        exact Or.inl ⟨h1, h2, hl.longs _ _ hp⟩
      · exact Or.inl ⟨h1, h2, by simp [InLong]⟩
      · exact Or.inl ⟨h1, h2, by simp [InLong]⟩
    · exact Or.inr ⟨rfl, rfl⟩

theorem fromHandle_keeps {E : Env F} {earth : String} {members : List (String → Bool)} {extra : List String} {url : String} {pos size : ℕ} {hd : Option (Handle F)} {m : Msg F}
    (hl : ∀ h, hd = some h → LibOk E h ∧ ∀ u, LibOk E (E.setUnit h u)) (hurl : url ≠ "") (hpos : pos < 2 ^ 63) (hsize : size < 2 ^ 63) (hn : members.length < 2 ^ 63)
    (h : fromHandle E earth members extra url pos size hd = .made m) : Keeps E m := by
  obtain ⟨hh, h', ed, ids, name, short, others, lt, ln, t, e, typ, g, q0, q1, q2, q3, q4, q5, q6, q7, q8, q9, q10, q11, q12, rfl⟩ := fromHandle_made h
  obtain ⟨l1, l2⟩ := hl hh q0
  have l3 : LibOk E h' := by
    unfold withUnit at q8
    obtain ⟨u, _, q8⟩ := out_bind q8
    by_cases c : u ≠ 255
    · rw [if_pos c] at q8
      simp only [Out.made.injEq] at q8
      subst q8
      exact l2 u
    · rw [if_neg c] at q8
      simp only [Out.made.injEq] at q8
      subst q8
      exact l1
  have ht := readTimes_ok l3 q9
  refine ⟨hurl, ?_, ?_, readIds_int l1 q2, ensemble_ok l3 hn q10, readExtra_ok l1 extra [] others q5 (by simp [Felt.Sorted]) (by simp), ?_⟩
  · intro n hn'
    simp only [Option.some.injEq] at hn'
    omega
  · simp only [List.mem_cons, List.not_mem_nil, or_false, forall_eq_or_imp, forall_eq, Option.some.injEq, forall_eq']
    exact ⟨by unfold InLong; omega, ht.1, ht.2.1, ht.2.2.1, ht.2.2.2.1, ht.2.2.2.2.1, ht.2.2.2.2.2, l1.longs _ _ (getLong_get q6), l1.longs _ _ (getLong_get q7)⟩
  · intro e' he'
    simp only [Option.some.injEq] at he'
    subst he'
    unfold readGridOf at q12
    split at q12
    · exact l3.grids _ _ _ _ q12
    · cases q12

/-- **C121.** From file to index file and back: what is read from the index file is what was found in the GRIB file. -/
theorem C121_file_kept (E : Env F) (lib : Lib F) (members : List (String → Bool)) (o : Options) (url : String) (bytes : List ℕ) (earth : String) (ix : Index F) (d : Doc)
    (hl : ∀ b h, lib b = some h → LibOk E h ∧ ∀ u, LibOk E (E.setUnit h u)) (hp : Plain url) (hurl : url ≠ "") (hb : bytes.length < 2 ^ 63) (hn : members.length < 2 ^ 63)
    (hi : (init E lib members o url bytes none earth).2 = .ok ix) (hw : writeIndex E ix = .ok d) : openIndex E (some d) = .ok ix := by
  unfold init at hi
  simp only [List.filter_nil] at hi
  have hall := scan_all (fun b p n => fromHandle E (o.earth.getD earth) members o.extra url p n (lib b)) bytes (fun m => Keeps E m) ?_ (bytes.length + 1) 0 [] (by simp)
  · revert hi hall
    generalize scan (fun b p n => fromHandle E (o.earth.getD earth) members o.extra url p n (lib b)) bytes (bytes.length + 1) 0 [] = sc
    obtain ⟨ms, out⟩ := sc
    intro hi hall
    cases out with
    | ok u =>
      simp only [afterScan, Res.ok.injEq] at hi
      subst hi
      exact C121_index_kept E _ d hp hall hw
    | throws => cases hi
    | ub => cases hi
  · intro b p n m h h1 h2
    exact fromHandle_keeps (fun h' e => hl b h' e) hurl (by omega) (by omega) hn h

/-! ## Ensembles -/

/-- **C121.** A message which tells nothing about ensembles and clusters is the member whose pattern is the first to match the path of its file, of as many as there are patterns; without a match it is no member. -/
theorem C121_members (h : Handle F) (members : List (String → Bool)) (url : String) (h1 : get h "numberOfForecastsInEnsemble" = none) (h2 : get h "totalNumberOfClusters" = none) :
    ∃ e, ensembleOf h members url = .made e ∧
      (∀ i (hi : i < members.length), members[i] url = true → (∀ j (hj : j < i), members[j] url = false) → clustersOf h e = ((i : ℤ), (members.length : ℤ))) ∧
      ((∀ p ∈ members, p url = false) → clustersOf h e = (0, 0)) := by
  unfold ensembleOf
  rw [h1]
  refine ⟨_, rfl, ?_, ?_⟩
  · intro i hi hm hj
    have hf : (members.findIdx? fun p => p url) = some i := by
      rw [List.findIdx?_eq_some_iff_getElem]
      exact ⟨hi, hm, fun j hj' => by simp [hj j hj']⟩
    unfold memberOf clustersOf
    rw [hf]
    simp only
    rw [if_neg (by omega)]
  · intro hm
    have hf : (members.findIdx? fun p => p url) = none := by
      rw [List.findIdx?_eq_none_iff]
      exact hm
    unfold memberOf clustersOf
    rw [hf]
    simp only [h2, if_true]

/-- **C121.** The message's own ensemble wins; a number of forecasts without a member's number is ignored, then clusters are asked. -/
theorem C121_own_ensemble (h : Handle F) (members : List (String → Bool)) (url : String) (t : ℤ) (h1 : get h "numberOfForecastsInEnsemble" = some (.long t)) :
    (∀ p, get h "perturbationNumber" = some (.long p) → t ≠ 0 → (ensembleOf h members url).bind (fun e => .made (clustersOf h e)) = .made (p, t)) ∧
    (∀ c n, get h "perturbationNumber" = none → get h "totalNumberOfClusters" = some (.long c) → get h "clusterNumber" = some (.long n) → (ensembleOf h members url).bind (fun e => .made (clustersOf h e)) = .made (n, c)) := by
  unfold ensembleOf
  rw [h1]
  refine ⟨fun p hp ht => ?_, fun c n hp hc hn => ?_⟩
  · simp only [hp, Out.bind, clustersOf]
    rw [if_neg ht]
  · simp only [hp, Out.bind, clustersOf, hc, hn]
    rfl

/-! ## The figure of the earth -/

/-- **C121.** After success the file's variable is empty; after an exception it keeps the figure given by the user of the failed index. -/
theorem C121_figure_left (E : Env F) (lib : Lib F) (members : List (String → Bool)) (o : Options) (url : String) (bytes : List ℕ) (g : Option (Option Doc)) (earth earth' : String) :
    (∀ ix, init E lib members o url bytes g earth = (earth', .ok ix) → earth' = "") ∧ (init E lib members o url bytes g earth = (earth', .throws) → earth' = o.earth.getD earth) := by
  unfold init
  simp only
  have key : ∀ sc : List (Msg F) × Res Unit, (∀ ix, afterScan (o.earth.getD earth) url sc = (earth', .ok ix) → earth' = "") ∧ (afterScan (o.earth.getD earth) url sc = (earth', .throws) → earth' = o.earth.getD earth) := by
    rintro ⟨ms, out⟩
    cases out with
    | ok u => exact ⟨fun ix h => by simp only [afterScan, Prod.mk.injEq] at h; exact h.1.symm, fun h => by simp [afterScan] at h⟩
    | throws => exact ⟨fun ix h => by simp [afterScan] at h, fun h => by simp only [afterScan, Prod.mk.injEq] at h; exact h.1.symm⟩
    | ub => exact ⟨fun ix h => by simp [afterScan] at h, fun h => by simp [afterScan] at h⟩
  split
  · exact ⟨fun ix h => by simp at h, fun h => by simp at h⟩
  · exact key _

/-! ## Longitudes -/

section
variable {K : Type} [Field K] [LinearOrder K] [IsStrictOrderedRing K] [FloorRing K]

/-- **C121.** Longitudes from −360 on are brought to [0, 360), where they stay; a grid is not changed by being made again. -/
theorem C121_longitude (x : K) (h : -360 ≤ x) : 0 ≤ wrapExact x ∧ wrapExact x < 360 ∧ wrapExact (wrapExact x) = wrapExact x := by
  have hrange : ∀ y : K, -360 ≤ y → 0 ≤ wrapExact y ∧ wrapExact y < 360 := by
    intro y hy
    unfold wrapExact
    rw [if_pos (by linarith)]
    have h1 := Int.floor_le ((y + 360) / 360)
    have h2 := Int.lt_floor_add_one ((y + 360) / 360)
    rw [le_div_iff₀ (by norm_num)] at h1
    rw [div_lt_iff₀ (by norm_num)] at h2
    constructor <;> linarith
  have hfix : ∀ y : K, 0 ≤ y → y < 360 → wrapExact y = y := by
    intro y h0 h1
    unfold wrapExact
    rw [if_pos (by linarith)]
    have : ⌊(y + 360) / 360⌋ = 1 := by
      rw [Int.floor_eq_iff]
      constructor
      · rw [le_div_iff₀ (by norm_num)]; push_cast; linarith
      · rw [div_lt_iff₀ (by norm_num)]; push_cast; linarith
    rw [this]
    push_cast
    ring
  obtain ⟨h1, h2⟩ := hrange x h
  exact ⟨h1, h2, hfix _ h1 h2⟩

end

/-- **C121.** A longitude below −360 is not: it changes each time the grid is made, hence when the index is read back. -/
theorem C121_longitude_below : wrapExact (-400 : ℚ) = -40 ∧ wrapExact (-40 : ℚ) = 320 := by
  constructor <;> · unfold wrapExact; norm_num

/-! ## Cases -/

/-- Whole numbers as doubles; the grid tells the figure of the earth in its projection. -/
def exEnv : Env ℤ :=
  { lit := id, thousandth := 3, millionth := 6, print := showInt, parse := atol, wrap := fun x => (x + 360) % 360,
    grid := fun earth ed _ _ => .made { proj := "+proj=latlong" ++ earth, degree := true, xSize := 3, ySize := 2, xIncr := 1, yIncr := -1, xStart := 350, yStart := 60, lonStart := 350, latStart := 60, resolution := if ed = 1 then 3 else 6, scan := 0 },
    setUnit := fun h u => ("stepUnits", .long u) :: h }

/-- A message of edition 2. -/
def exHandle : Handle ℤ :=
  [("edition", .long 2), ("parameterNumber", .long 0), ("parameterCategory", .long 2), ("discipline", .long 0), ("shortName", .text "unknown"), ("typeOfFirstFixedSurface", .long 103), ("level", .long 2), ("indicatorOfUnitOfTimeRange", .long 1),
   ("stepUnits", .long 0), ("stepType", .text "instant"), ("dataDate", .long 20260101), ("time", .long 600), ("timeRangeIndicator", .long 0), ("startStep", .long 3), ("endStep", .long 3), ("typeOfGrid", .text "regular_ll"), ("extra", .long (-5))]

/-- 20 bytes with a head of edition 2. -/
def exBytes : List ℕ := [71, 82, 73, 66, 0, 0, 0, 2, 0, 0, 0, 0, 0, 0, 0, 20, 55, 55, 55, 55]

/-- The library reads every message as the one above. -/
def exLib : Lib ℤ := fun _ => some exHandle

example : Whole exBytes := by
  unfold Whole
  decide +kernel

theorem exRestored (x : ℤ) (h : InLong x) : exEnv.parse (exEnv.print x) = x := atol_show h

/-- The message expected for the bytes at a position. -/
def exMsg (url proj : String) (pos : ℤ) : Msg ℤ :=
  { url := url, pos := some pos, size := some 20, name := "0,2,0", short := "0_2_0", ids := (0, 2, 0), edition := some 2, date := some 20260101, time := some 600, unit := some 1, stepType := "instant", stepStart := some 3, stepEnd := some 3, timeRange := some 0, statistic := some (-1), levelType := some 103, levelNo := some 2, member := 1, total := 2, others := [("extra", -5)], gridType := "regular_ll",
    grid := { proj := proj, degree := true, xSize := 3, ySize := 2, xIncr := 1, yIncr := -1, xStart := 350, yStart := 60, lonStart := 350, latStart := 60, resolution := 6, scan := 0 } }

/-- Two members, told by their paths. -/
def exMembers : List (String → Bool) := [fun s => s == "m0.grb", fun s => s == "m1.grb"]

example : init exEnv exLib exMembers { earth := none, extra := ["extra", "absent"] } "m1.grb" (exBytes ++ exBytes) none "" = ("", .ok { url := "m1.grb", msgs := [exMsg "m1.grb" "+proj=latlong" 0, exMsg "m1.grb" "+proj=latlong" 20] }) := by
  decide +kernel

/-- Its index is written and read back. -/
example : ∃ d, writeIndex exEnv { url := "m1.grb", msgs := [exMsg "m1.grb" "+proj=latlong" 0] } = .ok d ∧ d.events.length = 14 ∧ openIndex exEnv (some d) = .ok { url := "m1.grb", msgs := [exMsg "m1.grb" "+proj=latlong" 0] } := by
  refine ⟨_, rfl, ?_, ?_⟩ <;> decide +kernel

example : Keeps exEnv (exMsg "m1.grb" "+proj=latlong" 20) := by
  refine ⟨by decide, ?_, ?_, ?_, ?_, ?_, ?_⟩
  · intro n h; simp only [exMsg, Option.some.injEq] at h; omega
  · simp [exMsg, InLong]
  · simp [exMsg, InInt]
  · simp [exMsg, InLong]
  · simp [exMsg, InLong, Felt.Sorted]
  · intro e h
    simp only [exMsg, Option.some.injEq] at h
    subst h
    refine ⟨by simp [exMsg], by simp [exMsg], by simp [exMsg], ?_, by decide, by decide⟩
    simp only [exMsg, List.mem_cons, List.not_mem_nil, or_false, forall_eq_or_imp, forall_eq]
    exact ⟨exRestored _ (by simp [InLong]), exRestored _ (by simp [InLong]), exRestored _ (by simp [InLong]), exRestored _ (by simp [InLong]), exRestored _ (by simp [InLong]), exRestored _ (by simp [InLong])⟩

example : LibOk exEnv exHandle := by
  refine ⟨?_, ?_, ?_, ?_⟩
  · have hv : ∀ p ∈ exHandle, ∀ i, p.2 = Val.long i → InLong i := by
      unfold exHandle
      simp [InLong]
    intro k i h
    unfold GribGrid.get at h
    obtain ⟨l1, l2, e, _⟩ := List.lookup_eq_some_iff.1 h
    exact hv (GribGrid.canon k, Val.long i) (by rw [e]; simp) i rfl
  · simp only [List.mem_cons, List.not_mem_nil, or_false, forall_eq_or_imp, forall_eq]
    refine ⟨?_, ?_, ?_, ?_, ?_, ?_⟩ <;> intro i h <;> revert h <;> simp [exHandle, GribGrid.get, GribGrid.canon, List.lookup, InInt] <;> omega
  · simp only [List.mem_cons, List.not_mem_nil, or_false, forall_eq_or_imp, forall_eq]
    constructor <;> intro i h <;> revert h <;> simp [exHandle, GribGrid.get, GribGrid.canon, List.lookup]
  · intro earth ed typ g h
    simp only [exEnv, Out.made.injEq] at h
    subst h
    refine ⟨by simp, by simp, by simp, ?_, by show ((350 : ℤ) + 360) % 360 = 350; decide, rfl⟩
    simp only [List.mem_cons, List.not_mem_nil, or_false, forall_eq_or_imp, forall_eq]
    exact ⟨exRestored _ (by simp [InLong]), exRestored _ (by simp [InLong]), exRestored _ (by simp [InLong]), exRestored _ (by simp [InLong]), exRestored _ (by simp [InLong]), exRestored _ (by simp [InLong])⟩

/-- **C121.** A figure of the earth given for one file is used for the next file if the first one could not be read to its end: the second index has another grid than it would have had. -/
theorem C121_figure_of_another_file :
    (init exEnv exLib [] { earth := some " +a=1", extra := [] } "cut.grb" (exBytes.take 18) none "").1 = " +a=1" ∧
    (init exEnv exLib [] { earth := some " +a=1", extra := [] } "cut.grb" (exBytes.take 18) none "").2 = .throws ∧
    ∃ a b, (init exEnv exLib [] { earth := none, extra := [] } "good.grb" exBytes none " +a=1").2 = .ok a ∧ (init exEnv exLib [] { earth := none, extra := [] } "good.grb" exBytes none "").2 = .ok b ∧
      a.msgs.map (fun m => m.grid.proj) = ["+proj=latlong +a=1"] ∧ b.msgs.map (fun m => m.grid.proj) = ["+proj=latlong"] := by
  refine ⟨by decide +kernel, by decide +kernel, { url := "good.grb", msgs := [{ exMsg "good.grb" "+proj=latlong +a=1" 0 with member := 0, total := 0, others := [] }] }, { url := "good.grb", msgs := [{ exMsg "good.grb" "+proj=latlong" 0 with member := 0, total := 0, others := [] }] }, ?_, ?_, ?_, ?_⟩ <;> decide +kernel

end Fimex.Grbml
