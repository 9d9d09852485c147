import Verif.SliceBuilder.Model

/-!
# Properties C01, C02: the slice builder under any history of calls
-/

namespace Fimex.SB

/-! ## Specification vocabulary -/

/-- What a successful call means: the dimension it names and the region it asks for.
`len` gives the full length of a dimension. Calls with a null axis mean nothing. -/
def meaning (len : String → Nat) : Call → Option (String × Nat × Nat)
  | .set n st sz => some (n, st, sz)
  | .all n => some (n, 0, len n)
  | .setAxis (some (n, _)) st sz => some (n, st, sz)
  | .allAxis (some (n, _)) => some (n, 0, len n)
  | .setAxis none _ _ => none
  | .allAxis none => none

/-- The calls of a history that were accepted, with their meaning, in order. -/
def acceptedMeanings (len : String → Nat) : List Call → List (Res Unit) → List (String × Nat × Nat)
  | c :: cs, r :: rs =>
    (if r = .ok () then (meaning len c).toList else []) ++ acceptedMeanings len cs rs
  | _, _ => []

/-- The region the last entry for `n` asks for; `dflt` when there is none. -/
def lastFor (n : String) (dflt : Nat × Nat) : List (String × Nat × Nat) → Nat × Nat
  | [] => dflt
  | (m, r) :: es => lastFor n (if m = n then r else dflt) es

/-- Upper end representable as `size_t`. -/
def meaningNoWrap (m : String × Nat × Nat) : Prop := m.2.1 + m.2.2 < two64

instance (m : String × Nat × Nat) : Decidable (meaningNoWrap m) := by
  unfold meaningNoWrap; infer_instance

/-! ## Helper lemmas -/

theorem mapGet_mapSet (m : List (String × Nat)) (k k' : String) (v : Nat) :
    mapGet (mapSet m k v) k' = if k = k' then some v else mapGet m k' := by
  induction m with
  | nil => simp [mapSet, mapGet]
  | cons e m ih =>
    obtain ⟨a, b⟩ := e
    by_cases h : a = k
    · subst h; by_cases h2 : a = k' <;> simp [mapSet, mapGet, h2]
    · by_cases h2 : a = k'
      · subst h2; simp [mapSet, mapGet, h, Ne.symm h]
      · simp [mapSet, mapGet, h, h2, ih]

theorem mapGet_fill_lt (ns : List String) : ∀ (pos : Nat) (m : List (String × Nat)) (N : Nat),
    (∀ k p, mapGet m k = some p → p < N) → pos + ns.length ≤ N →
    ∀ k p, mapGet (fillDimPos pos ns m) k = some p → p < N := by
  induction ns with
  | nil => intro pos m N h _ k p hk; exact h k p hk
  | cons n ns ih =>
    intro pos m N h hN k p hk
    simp only [List.length_cons] at hN
    refine ih (pos + 1) (mapSet m n pos) N ?_ (by omega) k p hk
    intro k p hp
    rw [mapGet_mapSet] at hp
    split at hp
    · simp at hp; omega
    · exact h k p hp

theorem mapSet_of_not_mem (m : List (String × Nat)) (k : String) (v : Nat)
    (h : k ∉ m.map Prod.fst) : mapSet m k v = m ++ [(k, v)] := by
  induction m with
  | nil => rfl
  | cons e m ih =>
    obtain ⟨a, b⟩ := e
    simp only [List.map_cons, List.mem_cons, not_or] at h
    simp [mapSet, Ne.symm h.1, ih h.2]

theorem fill_eq (ns : List String) : ∀ (pos : Nat) (m : List (String × Nat)), ns.Nodup →
    (∀ n ∈ ns, n ∉ m.map Prod.fst) → fillDimPos pos ns m = m ++ ns.zipIdx pos := by
  induction ns with
  | nil => intro pos m _ _; simp [fillDimPos]
  | cons n ns ih =>
    intro pos m hn hd
    rw [fillDimPos, mapSet_of_not_mem m n pos (hd n (by simp)), ih (pos + 1) _ (List.nodup_cons.1 hn).2]
    · simp
    · intro x hx
      simp only [List.map_append, List.map_cons, List.map_nil, List.mem_append, List.mem_singleton,
        not_or]
      refine ⟨hd x (by simp [hx]), ?_⟩
      rintro rfl
      exact (List.nodup_cons.1 hn).1 hx

theorem mapGet_zipIdx (ns : List String) : ∀ (pos : Nat), ns.Nodup → ∀ i n, ns[i]? = some n →
    mapGet (ns.zipIdx pos) n = some (pos + i) := by
  induction ns with
  | nil => intro pos _ i n h; simp at h
  | cons a ns ih =>
    intro pos hn i n h
    cases i with
    | zero => simp at h; subst h; simp [mapGet]
    | succ i =>
      simp at h
      have hne : a ≠ n := by
        rintro rfl; exact (List.nodup_cons.1 hn).1 (List.mem_of_getElem? h)
      simp only [List.zipIdx_cons, mapGet, hne, if_false]
      rw [ih (pos + 1) (List.nodup_cons.1 hn).2 i n h]
      congr 1; omega

theorem mapGet_some_mem (m : List (String × Nat)) (k : String) (p : Nat) (h : mapGet m k = some p) :
    (k, p) ∈ m := by
  induction m with
  | nil => simp [mapGet] at h
  | cons e m ih =>
    obtain ⟨a, b⟩ := e
    by_cases hk : a = k
    · simp [mapGet, hk] at h; simp [hk, h]
    · simp [mapGet, hk] at h; simp [ih h]

/-- Shape of a builder made for `n` dimensions. -/
structure Shape (N : Nat) (sizes : List Nat) (unl : List Bool) (dm : List (String × Nat))
    (b : Builder) : Prop where
  dp : b.dimPos = dm
  mx : b.maxSize = sizes
  un : b.unlimited = unl
  st : b.start.length = N
  sz : b.size.length = N
  ls : sizes.length = N
  lu : unl.length = N
  lt : ∀ k p, mapGet dm k = some p → p < N

theorem Shape.getDimPos {N sizes unl dp b} (h : Shape N sizes unl dp b) (n : String) :
    (SB.getDimPos b n = .throws ∧ mapGet dp n = none) ∨
      ∃ p, SB.getDimPos b n = .ok p ∧ p < N ∧ mapGet dp n = some p := by
  unfold SB.getDimPos
  rw [h.dp]
  cases hg : mapGet dp n with
  | none => simp
  | some p => exact Or.inr ⟨p, rfl, h.lt n p hg, rfl⟩

/-- Complete description of `setStartAndSize` on a well-shaped builder. -/
theorem Shape.set_cases {N sizes unl dp b} (h : Shape N sizes unl dp b) (n : String) (st sz : Nat) :
    (setStartAndSize b n st sz = (b, .throws)) ∨
    ∃ p, mapGet dp n = some p ∧ p < N ∧
      ¬ (unl.getD p true = false ∧ sizes.getD p 0 < wadd st sz) ∧
      setStartAndSize b n st sz =
        ({ b with
            start := b.start.set p st, size := b.size.set p sz,
            setDims := if n ∈ b.setDims then b.setDims else n :: b.setDims }, .ok ()) := by
  rcases h.getDimPos n with ⟨e, -⟩ | ⟨p, e, hp, hg⟩
  · left; simp [setStartAndSize, e]
  · have hu : at' b.unlimited p = .ok (unl.getD p true) := by
      have : p < unl.length := by rw [h.lu]; exact hp
      simp [at', h.un, this]
    have hm : at' b.maxSize p = .ok (sizes.getD p 0) := by
      have : p < sizes.length := by rw [h.ls]; exact hp
      simp [at', h.mx, this]
    by_cases hc : unl.getD p true = false ∧ sizes.getD p 0 < wadd st sz
    · left; simp only [setStartAndSize, e, hu, hm, if_pos hc]
    · right
      refine ⟨p, hg, hp, hc, ?_⟩
      have h1 : ¬ b.start.length ≤ p := by rw [h.st]; omega
      have h2 : ¬ b.size.length ≤ p := by rw [h.sz]; omega
      simp only [setStartAndSize, e, hu, hm, if_neg hc, if_neg h1, if_neg h2]

/-- What a call can do to a well-shaped builder: raise without effect, do nothing, or write the
region it means at the position of the dimension it names. -/
theorem Shape.call_cases {N sizes unl dp b} (h : Shape N sizes unl dp b) (len : String → Nat)
    (hlen : ∀ k p, mapGet dp k = some p → sizes[p]? = some (len k)) (c : Call) :
    (call b c = (b, .throws)) ∨ (call b c = (b, .ok ()) ∧ meaning len c = none) ∨
    ∃ n st sz p, meaning len c = some (n, st, sz) ∧ mapGet dp n = some p ∧ p < N ∧
      ¬ (unl.getD p true = false ∧ sizes.getD p 0 < wadd st sz) ∧
      call b c =
        ({ b with
            start := b.start.set p st, size := b.size.set p sz,
            setDims := if n ∈ b.setDims then b.setDims else n :: b.setDims }, .ok ()) := by
  have hset : ∀ n st sz, (setStartAndSize b n st sz = (b, .throws)) ∨ _ := h.set_cases
  have hall : ∀ n, setAll b n = (b, .throws) ∨ setAll b n = setStartAndSize b n 0 (len n) := by
    intro n
    rcases h.getDimPos n with ⟨e, -⟩ | ⟨p, e, hp, hg⟩
    · left; simp [setAll, e]
    · right
      have hm : at' b.maxSize p = .ok (len n) := by
        simp [at', h.mx, hlen n p hg]
      simp only [setAll, e, hm]
  cases c with
  | set n st sz =>
    rcases hset n st sz with e | ⟨p, h1, h2, h3, h4⟩
    · left; exact e
    · exact Or.inr (Or.inr ⟨n, st, sz, p, rfl, h1, h2, h3, h4⟩)
  | all n =>
    rcases hall n with e | e
    · left; exact e
    · rcases hset n 0 (len n) with e' | ⟨p, h1, h2, h3, h4⟩
      · left; exact e.trans e'
      · exact Or.inr (Or.inr ⟨n, 0, len n, p, rfl, h1, h2, h3, e.trans h4⟩)
  | setAxis a st sz =>
    cases a with
    | none => exact Or.inr (Or.inl ⟨rfl, rfl⟩)
    | some a =>
      obtain ⟨n, ex⟩ := a
      cases ex with
      | false => left; rfl
      | true =>
        rcases hset n st sz with e | ⟨p, h1, h2, h3, h4⟩
        · left; exact e
        · exact Or.inr (Or.inr ⟨n, st, sz, p, rfl, h1, h2, h3, h4⟩)
  | allAxis a =>
    cases a with
    | none => exact Or.inr (Or.inl ⟨rfl, rfl⟩)
    | some a =>
      obtain ⟨n, ex⟩ := a
      cases ex with
      | false => left; rfl
      | true =>
        rcases hall n with e | e
        · left; exact e
        · rcases hset n 0 (len n) with e' | ⟨p, h1, h2, h3, h4⟩
          · left; exact e.trans e'
          · exact Or.inr (Or.inr ⟨n, 0, len n, p, rfl, h1, h2, h3, e.trans h4⟩)

theorem Shape.write {N sizes unl dp b} (h : Shape N sizes unl dp b) (p st sz : Nat) (sd : List String) :
    Shape N sizes unl dp
      { b with start := b.start.set p st, size := b.size.set p sz, setDims := sd } where
  dp := h.dp
  mx := h.mx
  un := h.un
  st := by simp [h.st]
  sz := by simp [h.sz]
  ls := h.ls
  lu := h.lu
  lt := h.lt

theorem init_shape {names : List String} {sizes : List Nat} {unl : List Bool} {b : Builder}
    (hi : init names sizes unl = .ok b) :
    Shape names.length sizes unl (fillDimPos 0 names []) b ∧ b.setDims = [] ∧
      b.start = sizes.map (fun _ => 0) ∧ b.size = sizes := by
  unfold init at hi
  split at hi
  · cases hi
  · rename_i hc
    simp only [ne_eq, not_or, Decidable.not_not] at hc
    cases hi
    refine ⟨⟨rfl, rfl, rfl, by simp [hc.1], by simp [hc.1], hc.1.symm, hc.2.symm, ?_⟩, rfl, rfl, rfl⟩
    exact mapGet_fill_lt names 0 [] names.length (by simp [mapGet]) (by simp)

/-! ## C01 -/

/-- **C01** (exceptions have no effect). On a builder made by the constructor and driven by any
history, a further call that raises leaves the builder exactly as it was. -/
theorem C01_raising_call_has_no_effect (names : List String) (sizes : List Nat) (unl : List Bool)
    (b0 : Builder) (hi : init names sizes unl = .ok b0) (cs : List Call) (c : Call)
    (hr : (call (run b0 cs).1 c).2 ≠ .ok ()) :
    (call (run b0 cs).1 c).1 = (run b0 cs).1 ∧ (call (run b0 cs).1 c).2 = .throws := by
  obtain ⟨hs, -⟩ := init_shape hi
  -- a total length function agreeing with the last position of each name
  let len : String → Nat := fun n => match mapGet (fillDimPos 0 names []) n with
    | some p => sizes.getD p 0
    | none => 0
  have hlen : ∀ k p, mapGet (fillDimPos 0 names []) k = some p → sizes[p]? = some (len k) := by
    intro k p hp
    have : p < sizes.length := by rw [hs.ls]; exact hs.lt k p hp
    simp [len, hp, this]
  have hrun : ∀ (cs : List Call) (b : Builder), Shape names.length sizes unl (fillDimPos 0 names []) b →
      Shape names.length sizes unl (fillDimPos 0 names []) (run b cs).1 := by
    intro cs
    induction cs with
    | nil => intro b h; exact h
    | cons c cs ih =>
      intro b h
      rcases h.call_cases len hlen c with e | ⟨e, -⟩ | ⟨n, st, sz, p, -, -, -, -, e⟩
      · simp only [run, e]; exact ih b h
      · simp only [run, e]; exact ih b h
      · simp only [run, e]; exact ih _ (h.write p st sz _)
  rcases (hrun cs b0 hs).call_cases len hlen c with e | ⟨e, -⟩ | ⟨n, st, sz, p, -, -, -, -, e⟩
  · rw [e]; exact ⟨rfl, rfl⟩
  · rw [e] at hr; exact absurd rfl hr
  · rw [e] at hr; exact absurd rfl hr

/-- **C01.** After any history of calls, the requested region of every dimension of fixed length lies
inside the dimension, provided no accepted call had an upper end of `2^64` or more.
The lengths of the dimensions never change. -/
theorem C01_region_inside_after_any_history (names : List String) (sizes : List Nat)
    (unl : List Bool) (b0 : Builder) (hi : init names sizes unl = .ok b0) (cs : List Call)
    (len : String → Nat)
    (hlen : ∀ k p, mapGet b0.dimPos k = some p → sizes[p]? = some (len k))
    (hw : ∀ m ∈ acceptedMeanings len cs (run b0 cs).2, meaningNoWrap m) :
    (run b0 cs).1.maxSize = sizes ∧
    (run b0 cs).1.start.length = names.length ∧ (run b0 cs).1.size.length = names.length ∧
    ∀ (i : Nat) (st sz : Nat), unl[i]? = some false → (run b0 cs).1.start[i]? = some st →
      (run b0 cs).1.size[i]? = some sz → ∃ mx, sizes[i]? = some mx ∧ st + sz ≤ mx := by
  obtain ⟨hs, -, h0, h1⟩ := init_shape hi
  rw [hs.dp] at hlen
  have hin : ∀ (i : Nat) (st sz : Nat), unl[i]? = some false → b0.start[i]? = some st → b0.size[i]? = some sz →
      ∃ mx, sizes[i]? = some mx ∧ st + sz ≤ mx := by
    intro i st sz _ h2 h3
    rw [h0] at h2; rw [h1] at h3
    refine ⟨sz, h3, ?_⟩
    simp [h3] at h2; omega
  clear h0 h1 hi
  induction cs generalizing b0 with
  | nil => exact ⟨hs.mx, hs.st, hs.sz, hin⟩
  | cons c cs ih =>
    rcases hs.call_cases len hlen c with e | ⟨e, -⟩ | ⟨n, st, sz, p, hm, hp, hpl, hc, e⟩
    · simp only [run, e] at hw ⊢
      exact ih b0 (fun m hm => hw m (by simp [acceptedMeanings, hm])) hs hin
    · simp only [run, e] at hw ⊢
      exact ih b0 (fun m hm => hw m (by simp [acceptedMeanings, hm])) hs hin
    · simp only [run, e] at hw ⊢
      have hnw : st + sz < two64 := hw (n, st, sz) (by simp [acceptedMeanings, hm])
      refine ih _ (fun m' hm' => hw m' (by simp [acceptedMeanings, hm'])) (hs.write p st sz _) ?_
      intro i st' sz' hu h2 h3
      by_cases hip : p = i
      · subst hip
        have l1 : p < b0.start.length := by rw [hs.st]; exact hpl
        have l2 : p < b0.size.length := by rw [hs.sz]; exact hpl
        simp [l1] at h2; simp [l2] at h3
        subst h2 h3
        refine ⟨len n, hlen n p hp, ?_⟩
        rw [wadd_eq hnw] at hc
        have : sizes.getD p 0 = len n := by simp [hlen n p hp]
        have hu' : unl.getD p true = false := by simp [hu]
        rw [this] at hc
        simp only [hu', true_and] at hc
        omega
      · simp only [List.getElem?_set_ne hip] at h2 h3
        exact hin i st' sz' hu h2 h3

/-- **C01** (functional form). For distinct dimension names the region reported for a dimension is
the one asked for by the last accepted call naming it, and the full dimension if there is none. -/
theorem C01_region_is_last_accepted (names : List String) (sizes : List Nat) (unl : List Bool)
    (b0 : Builder) (hi : init names sizes unl = .ok b0) (hn : names.Nodup) (len : String → Nat)
    (hlen : ∀ (i : Nat) (n : String), names[i]? = some n → sizes[i]? = some (len n)) (cs : List Call)
    (n : String) (hmem : n ∈ names) :
    getStartAndSize (run b0 cs).1 n =
      .ok (lastFor n (0, len n) (acceptedMeanings len cs (run b0 cs).2)) := by
  obtain ⟨hs, -, h0, h1⟩ := init_shape hi
  have hfill : fillDimPos 0 names [] = names.zipIdx := by
    simpa using fill_eq names 0 [] hn (by simp)
  rw [hfill] at hs
  have hget : ∀ (i : Nat) (n : String), names[i]? = some n → mapGet names.zipIdx n = some i := by
    intro i n h; simpa using mapGet_zipIdx names 0 hn i n h
  have hback : ∀ k p, mapGet names.zipIdx k = some p → names[p]? = some k := by
    intro k p h
    have := mapGet_some_mem _ _ _ h
    have := List.mem_zipIdx this
    obtain ⟨_, hlt, he⟩ := this
    simp at he hlt
    rw [List.getElem?_eq_getElem hlt, he]
  have hlen' : ∀ k p, mapGet names.zipIdx k = some p → sizes[p]? = some (len k) :=
    fun k p h => hlen p k (hback k p h)
  obtain ⟨i, hi'⟩ := List.getElem?_of_mem hmem
  have hpi := hget i n hi'
  have key : ∀ (cs : List Call) (b : Builder) (d : Nat × Nat),
      Shape names.length sizes unl names.zipIdx b →
      b.start[i]? = some d.1 → b.size[i]? = some d.2 →
      getStartAndSize (run b cs).1 n = .ok (lastFor n d (acceptedMeanings len cs (run b cs).2)) := by
    intro cs
    induction cs with
    | nil =>
      intro b d h e1 e2
      simp [run, acceptedMeanings, lastFor, getStartAndSize, getDimPos, h.dp, hpi, at', e1, e2]
    | cons c cs ih =>
      intro b d h e1 e2
      rcases h.call_cases len hlen' c with e | ⟨e, hm⟩ | ⟨m, st, sz, p, hm, hp, hpl, hc, e⟩
      · simpa [run, e, acceptedMeanings] using ih b d h e1 e2
      · simpa [run, e, acceptedMeanings, hm] using ih b d h e1 e2
      · simp only [run, e, acceptedMeanings, hm, if_true, Option.toList_some, List.cons_append,
          List.nil_append, lastFor]
        have l1 : p < b.start.length := by rw [h.st]; exact hpl
        have l2 : p < b.size.length := by rw [h.sz]; exact hpl
        by_cases hmn : m = n
        · subst hmn
          have hip : i = p := by rw [hpi] at hp; exact Option.some.inj hp
          subst hip
          exact ih _ _ (h.write _ _ _ _) (by simp [l1]) (by simp [l2])
        · have hip : p ≠ i := by
            rintro rfl
            exact hmn (Option.some.inj ((hback m p hp).symm.trans hi'))
          refine ih _ _ (h.write _ _ _ _) ?_ ?_
          · simp [hip, hmn, e1]
          · simp [hip, hmn, e2]
  refine key cs b0 (0, len n) hs ?_ ?_
  · rw [h0]; simp [hlen i n hi']
  · rw [h1]; exact hlen i n hi'

/-- A fixed-length dimension of a builder made from lengths only (the constructor of
src/SliceBuilder.cc:47-51) has no unlimited dimension, so C01 covers every dimension. Non-vacuity:
a history with accepted and rejected calls; the third call is out of range and has no effect. -/
example :
    let b0 : Builder := ⟨[("x", 0), ("t", 1)], [], [5, 3], [false, true], [0, 0], [5, 3]⟩
    let h := [Call.set "x" 1 2, .all "q", .set "x" 4 2, .setAxis (some ("t", true)) 7 9]
    init ["x", "t"] [5, 3] [false, true] = .ok b0 ∧
    (run b0 h).2 = [.ok (), .throws, .throws, .ok ()] ∧
    (run b0 h).1.start = [1, 7] ∧ (run b0 h).1.size = [2, 9] ∧
    (∀ m ∈ acceptedMeanings (fun n => if n = "x" then 5 else 3) h (run b0 h).2, meaningNoWrap m) := by
  decide

/-- The bound check wraps: `start = 2^64-1, size = 2` is accepted on a dimension of length 5, so
the proviso of C01 cannot be dropped. -/
theorem C01_wraparound_is_accepted :
    ∃ b0, init ["x"] [5] [false] = .ok b0 ∧
      setStartAndSize b0 "x" (two64 - 1) 2 =
        ({ b0 with start := [two64 - 1], size := [2], setDims := ["x"] }, .ok ()) :=
  ⟨⟨[("x", 0)], [], [5], [false], [0], [5]⟩, by decide, by decide⟩

/-! ## C02 -/

theorem go_names (es : List (String × Nat)) : ∀ (acc : List String),
    (∀ e ∈ es, e.2 < acc.length) → (es.map Prod.snd).Nodup →
    ∃ out, getDimensionNames.go es acc = .ok out ∧ out.length = acc.length ∧
      (∀ e ∈ es, out[e.2]? = some e.1) ∧ (∀ p, p ∉ es.map Prod.snd → out[p]? = acc[p]?) := by
  induction es with
  | nil => intro acc _ _; exact ⟨acc, rfl, rfl, by simp, by simp⟩
  | cons e es ih =>
    obtain ⟨k, p⟩ := e
    intro acc hlt hnd
    have hp : p < acc.length := hlt (k, p) (by simp)
    simp only [List.map_cons, List.nodup_cons] at hnd
    obtain ⟨out, h1, h2, h3, h4⟩ := ih (acc.set p k)
      (fun e he => by simpa using hlt e (by simp [he])) hnd.2
    refine ⟨out, by simp [getDimensionNames.go, hp, h1], by simpa using h2, ?_, ?_⟩
    · intro e he
      simp only [List.mem_cons] at he
      rcases he with rfl | he
      · rw [h4 p hnd.1]; simp [hp]
      · exact h3 e he
    · intro q hq
      simp only [List.map_cons, List.mem_cons, not_or] at hq
      rw [h4 q hq.2, List.getElem?_set_ne (Ne.symm hq.1)]

/-- **C02.** For distinct names and any history: the unset dimensions are exactly the dimensions that
no accepted call named, whatever the iteration order of the map. -/
theorem C02_unset_is_complement_of_accepted (names : List String) (sizes : List Nat)
    (unl : List Bool) (b0 : Builder) (hi : init names sizes unl = .ok b0) (hn : names.Nodup)
    (len : String → Nat) (hlen : ∀ (i : Nat) (n : String), names[i]? = some n → sizes[i]? = some (len n))
    (cs : List Call) (entries : List (String × Nat)) (hperm : entries.Perm (run b0 cs).1.dimPos) :
    (getUnsetDimensionNames (run b0 cs).1.setDims entries).Nodup ∧
    ∀ n, n ∈ getUnsetDimensionNames (run b0 cs).1.setDims entries ↔
      n ∈ names ∧ n ∉ (acceptedMeanings len cs (run b0 cs).2).map Prod.fst := by
  obtain ⟨hs, hsd, -, -⟩ := init_shape hi
  have hfill : fillDimPos 0 names [] = names.zipIdx := by
    simpa using fill_eq names 0 [] hn (by simp)
  rw [hfill] at hs
  have hlen' : ∀ k p, mapGet names.zipIdx k = some p → sizes[p]? = some (len k) := by
    intro k p h
    have := List.mem_zipIdx (mapGet_some_mem _ _ _ h)
    obtain ⟨_, hlt, he⟩ := this
    simp at he hlt
    exact hlen p k (by rw [List.getElem?_eq_getElem hlt, he])
  have key : ∀ (cs : List Call) (b : Builder),
      Shape names.length sizes unl names.zipIdx b →
      (run b cs).1.dimPos = names.zipIdx ∧
      ∀ n, n ∈ (run b cs).1.setDims ↔
        n ∈ b.setDims ∨ n ∈ (acceptedMeanings len cs (run b cs).2).map Prod.fst := by
    intro cs
    induction cs with
    | nil => intro b h; exact ⟨h.dp, by simp [run, acceptedMeanings]⟩
    | cons c cs ih =>
      intro b h
      rcases h.call_cases len hlen' c with e | ⟨e, hm⟩ | ⟨m, st, sz, p, hm, hp, hpl, hc, e⟩
      · simpa [run, e, acceptedMeanings] using ih b h
      · simpa [run, e, acceptedMeanings, hm] using ih b h
      · obtain ⟨i1, i2⟩ := ih _ (h.write p st sz (if m ∈ b.setDims then b.setDims else m :: b.setDims))
        refine ⟨by simpa only [run, e] using i1, fun n => ?_⟩
        simp only [run, e, acceptedMeanings, hm, if_true, Option.toList_some, List.cons_append,
          List.nil_append, List.map_cons, List.mem_cons]
        rw [i2 n]
        by_cases hmd : m ∈ b.setDims
        · simp only [if_pos hmd]
          constructor
          · rintro (h | h)
            · exact Or.inl h
            · exact Or.inr (Or.inr h)
          · rintro (h | rfl | h)
            · exact Or.inl h
            · exact Or.inl hmd
            · exact Or.inr h
        · simp only [if_neg hmd, List.mem_cons]
          grind
  obtain ⟨hdp, hset⟩ := key cs b0 hs
  rw [hdp] at hperm
  have hfst : entries.map Prod.fst |>.Perm names := by
    have := hperm.map Prod.fst
    rwa [List.zipIdx_map_fst] at this
  have hfm : getUnsetDimensionNames (run b0 cs).1.setDims entries =
      (entries.map Prod.fst).filter fun n => n ∉ (run b0 cs).1.setDims := by
    unfold getUnsetDimensionNames
    induction entries with
    | nil => rfl
    | cons e es _ =>
      clear hperm hfst
      induction (e :: es) with
      | nil => rfl
      | cons a l ih => by_cases ha : a.1 ∈ (run b0 cs).1.setDims <;> simp [ha, ih]
  rw [hfm]
  constructor
  · exact (hfst.nodup_iff.2 hn).filter _
  · intro n
    simp only [List.mem_filter, hfst.mem_iff, decide_eq_true_eq, hset n, hsd]
    simp

/-- **C02** (order). For distinct names the builder reports the names in the order of the variable's
shape after any history, whatever the iteration order of the map. -/
theorem C02_names_in_shape_order (names : List String) (sizes : List Nat) (unl : List Bool)
    (b0 : Builder) (hi : init names sizes unl = .ok b0) (hn : names.Nodup) (cs : List Call)
    (entries : List (String × Nat)) (hperm : entries.Perm (run b0 cs).1.dimPos) :
    getDimensionNames entries = .ok names := by
  obtain ⟨hs, -⟩ := init_shape hi
  have hfill : fillDimPos 0 names [] = names.zipIdx := by
    simpa using fill_eq names 0 [] hn (by simp)
  have hdp : ∀ (cs : List Call) (b : Builder), (run b cs).1.dimPos = b.dimPos := by
    intro cs
    have hset : ∀ b n st sz, (setStartAndSize b n st sz).1.dimPos = b.dimPos := by
      intro b n st sz
      unfold setStartAndSize
      dsimp only
      repeat' split
      all_goals rfl
    have hall : ∀ b n, (setAll b n).1.dimPos = b.dimPos := by
      intro b n
      unfold setAll
      repeat' split
      all_goals first | rfl | exact hset _ _ _ _
    have hcall : ∀ b c, (call b c).1.dimPos = b.dimPos := by
      intro b c
      unfold call
      split <;> first | rfl | exact hset _ _ _ _ | exact hall _ _
    induction cs with
    | nil => intro b; rfl
    | cons c cs ih => intro b; simp only [run]; rw [ih, hcall]
  rw [hdp, hs.dp, hfill] at hperm
  have hlen : entries.length = names.length := by rw [hperm.length_eq]; simp
  have hsnd : (entries.map Prod.snd).Perm (List.range names.length) := by
    have := hperm.map Prod.snd
    rwa [List.zipIdx_map_snd, ← List.range_eq_range'] at this
  obtain ⟨out, h1, h2, h3, -⟩ := go_names entries (List.replicate entries.length "")
    (by
      intro e he
      have : e.2 ∈ List.range names.length := hsnd.mem_iff.1 (List.mem_map_of_mem he)
      simp at this ⊢; omega)
    (hsnd.nodup_iff.2 List.nodup_range)
  unfold getDimensionNames
  rw [h1]
  congr 1
  apply List.ext_getElem
  · simpa using h2.trans (by simp [hlen])
  · intro i hi1 hi2
    have hm : (names[i], i) ∈ entries := hperm.mem_iff.2 (by
      rw [List.mem_zipIdx_iff_getElem?]; simp [hi2])
    have := h3 _ hm
    simpa [hi1] using this

/-- Non-vacuity of C02, with a map iterated in another order than the shape. -/
example :
    let b0 : Builder := ⟨[("x", 0), ("t", 1)], [], [5, 3], [false, false], [0, 0], [5, 3]⟩
    let h := [Call.set "x" 4 2, .all "t"]
    init ["x", "t"] [5, 3] [false, false] = .ok b0 ∧
    (run b0 h).2 = [.throws, .ok ()] ∧
    [("t", 1), ("x", 0)].Perm (run b0 h).1.dimPos ∧
    getUnsetDimensionNames (run b0 h).1.setDims [("t", 1), ("x", 0)] = ["x"] ∧
    getDimensionNames [("t", 1), ("x", 0)] = .ok ["x", "t"] := by
  decide

/-- With a repeated dimension name (possible for a variable of shape `(n, n)`) the map has fewer
entries than the rank and asking for the names raises. -/
theorem C02_repeated_name_raises :
    ∃ b0, init ["n", "n"] [4, 4] [false, false] = .ok b0 ∧ b0.dimPos = [("n", 1)] ∧
      getDimensionNames b0.dimPos = .throws :=
  ⟨⟨[("n", 1)], [], [4, 4], [false, false], [0, 0], [4, 4]⟩, by decide, rfl, by decide⟩

end Fimex.SB
