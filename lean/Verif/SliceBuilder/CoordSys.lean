import Verif.SliceBuilder.Props

/-!
# Slices of a coordinate system

Model of `CoordinateSystemSliceBuilder` (`src/CoordinateSystemSliceBuilder.cc:55-137`), on top of the model of `SliceBuilder`, with C69.

The axes are the list returned by `CoordinateSystem::getAxes` (axes, then auxiliary axes), so that `findAxisOfType` is the first of its type.
The variable that gives the dimensions is the first one belonging to the coordinate system; its names and lengths are parameters.
-/

namespace Fimex.SB.CS

/-! ## Model -/

/-- The axis types that are treated differently. -/
inductive AxisType where
  | refTime
  | time
  | other (n : Nat)
deriving DecidableEq

/-- A coordinate axis; `explicit`: it has one dimension, of its own name. -/
structure Axis where
  name : String
  type : AxisType
  explicit : Bool
  shape : List String
deriving DecidableEq

/-- src/coordSys/CoordinateSystem.cc:260-267 `findAxisOfType`. -/
def find (axes : List Axis) (t : AxisType) : Option Axis := axes.find? fun a => a.type = t

/-- src/CoordinateSystemSliceBuilder.cc:64-74 `setReferenceTimePos`. -/
def setReferenceTimePos (axes : List Axis) (b : Builder) (pos : Nat) : Builder × Res Unit :=
  match find axes .refTime with
  | none => (b, .ok ())
  | some a => if a.explicit then setStartAndSize b a.name pos 1 else (b, .ok ())

/-- `std::set<string>(v.begin(), v.end())`. -/
def toSet : List String → List String
  | [] => []
  | n :: ns => if n ∈ ns then toSet ns else n :: toSet ns

/-- src/CoordinateSystemSliceBuilder.cc:82-87: the dimensions of the time axis without the reference time. -/
def timeDims (axes : List Axis) (t : Axis) : List String :=
  match find axes .refTime with
  | none => toSet t.shape
  | some r => (toSet t.shape).filter fun n => n ≠ r.name

/-- src/CoordinateSystemSliceBuilder.cc:75-97 `setTimeStartAndSize`. -/
def setTimeStartAndSize (axes : List Axis) (b : Builder) (start size : Nat) : Builder × Res Unit :=
  match find axes .time with
  | none => (b, .ok ())
  | some t =>
    if t.explicit then setStartAndSize b t.name start size
    else
      match timeDims axes t with
      | [d] => setStartAndSize b d start size
      | _ => (b, .throws)

/-- src/CoordinateSystemSliceBuilder.cc:126-132: the loop over the axes. -/
def setLoop (type : AxisType) (start size : Nat) : List Axis → Builder → Builder × Res Unit
  | [], b => (b, .ok ())
  | a :: as, b =>
    if a.type = type ∧ a.explicit = true then
      match setStartAndSize b a.name start size with
      | (b, .ok ()) => setLoop type start size as b
      | r => r
    else setLoop type start size as b

/-- src/CoordinateSystemSliceBuilder.cc:118-137 `setAxisStartAndSize`. -/
def setAxisStartAndSize (axes : List Axis) (b : Builder) (type : AxisType) (start size : Nat) : Builder × Res Unit :=
  match type with
  | .refTime => setReferenceTimePos axes b start
  | .time => setTimeStartAndSize axes b start size
  | .other n => setLoop (.other n) start size axes b

/-- src/CoordinateSystemSliceBuilder.cc:54-62, the constructor (no unlimited dimensions, include/fimex/SliceBuilder.h:58). -/
def construct (axes : List Axis) (names : List String) (sizes : List Nat) : Res Builder := do
  let b ← init names sizes (names.map fun _ => false)
  match setReferenceTimePos axes b 0 with
  | (b, .ok ()) => .ok b
  | (_, .throws) => .throws
  | (_, .ub) => .ub

/-- src/CoordinateSystemSliceBuilder.cc:59-61: `tShape_`. -/
def timeShape (axes : List Axis) : List String :=
  match find axes .time with
  | none => []
  | some t => t.shape

/-- src/CoordinateSystemSliceBuilder.cc:111-114: the loop taking over the region. -/
def takeOver (b : Builder) : List String → Builder → Res Builder
  | [], sb => .ok sb
  | n :: ns, sb => do
    let pos ← getDimPos b n
    let st ← at' b.start pos
    let sz ← at' b.size pos
    match setStartAndSize sb n st sz with
    | (sb, .ok ()) => takeOver b ns sb
    | (_, .throws) => .throws
    | (_, .ub) => .ub

/-- src/CoordinateSystemSliceBuilder.cc:98-116 `getTimeVariableSliceBuilder`. -/
def getTimeVariableSliceBuilder (axes : List Axis) (b : Builder) : Res Builder := do
  let dimSize ← (timeShape axes).mapM fun n => getDimPos b n >>= at' b.maxSize
  let sb ← init (timeShape axes) dimSize ((timeShape axes).map fun _ => false)
  takeOver b (timeShape axes) sb

/-- A call of the derived class. -/
inductive Call where
  | ref (pos : Nat)
  | time (start size : Nat)
  | axis (type : AxisType) (start size : Nat)

/-- The effect of a call, whether it raises or not. -/
def step (axes : List Axis) (b : Builder) : Call → Builder × Res Unit
  | .ref p => setReferenceTimePos axes b p
  | .time st sz => setTimeStartAndSize axes b st sz
  | .axis t st sz => setAxisStartAndSize axes b t st sz

/-- A history of calls; exceptions are caught by the caller. -/
def history (axes : List Axis) (b : Builder) (cs : List Call) : Builder := cs.foldl (fun b c => (step axes b c).1) b

/-- src/CoordinateSystemSliceBuilder.cc:139-155 `getAxisTypes`. -/
def getAxisTypes (axes : List Axis) (names : List String) : Res (List AxisType) :=
  names.mapM fun n =>
    match axes.find? fun a => a.name = n with
    | some a => .ok a.type
    | none => .throws

/-! ## Specification -/

/-- The reference time axis: the first of the type. -/
def reference (axes : List Axis) : Option Axis := (axes.filter fun a => a.type = .refTime).head?

/-- The name of the reference time axis, if it has a dimension of its own. -/
def aboutReference (axes : List Axis) : List String :=
  ((reference axes).toList.filter (·.explicit)).map (·.name)

/-- The time axis itself, or its dimensions other than the reference time. -/
def aboutTime (axes : List Axis) : List String :=
  ((axes.filter fun a => a.type = .time).head?.toList).flatMap fun a =>
    if a.explicit then [a.name] else a.shape.filter fun n => (reference axes).map (·.name) ≠ some n

/-- The dimensions a call is about. -/
def about (axes : List Axis) : Call → List String
  | .ref _ => aboutReference axes
  | .time _ _ => aboutTime axes
  | .axis .refTime _ _ => aboutReference axes
  | .axis .time _ _ => aboutTime axes
  | .axis (.other n) _ _ => (axes.filter fun a => a.type = .other n ∧ a.explicit).map (·.name)

/-- The region a call asks for. -/
def asked : Call → Nat × Nat
  | .ref p => (p, 1)
  | .time st sz => (st, sz)
  | .axis .refTime p _ => (p, 1)
  | .axis _ st sz => (st, sz)

/-! ## Lemmas -/

/-- What the constructor fixes. -/
abbrev Good (names : List String) (sizes : List Nat) (b : Builder) : Prop :=
  Shape names.length sizes (names.map fun _ => false) (names.zipIdx 0) b

theorem zipIdx_get {names : List String} {k : String} {p : Nat} (h : mapGet (names.zipIdx 0) k = some p) :
    names[p]? = some k := by
  have := mapGet_some_mem _ _ _ h
  rw [List.mem_zipIdx_iff_getElem?] at this
  simpa using this

/-- Every region passed the check against the length of its dimension. -/
def Fit (names : List String) (sizes : List Nat) (b : Builder) : Prop :=
  ∀ (i : Nat) n st sz mx, names[i]? = some n → sizes[i]? = some mx → getStartAndSize b n = .ok (st, sz) → wadd st sz ≤ mx

/-- What a call may do to a builder with respect to some dimensions and a region. -/
def Frame (names : List String) (sizes : List Nat) (dims : List String) (reg : Nat × Nat) (b : Builder) (r : Builder × Res Unit) : Prop :=
  (Good names sizes r.1 ∧ (names.Nodup → Fit names sizes b → Fit names sizes r.1)) ∧ (∀ m, m ∉ dims → getStartAndSize r.1 m = getStartAndSize b m) ∧
  (∀ m ∈ dims, getStartAndSize r.1 m = getStartAndSize b m ∨ getStartAndSize r.1 m = .ok reg) ∧
  ((r.2 = .ok () ∧ ∀ m ∈ dims, getStartAndSize r.1 m = .ok reg) ∨ r.2 = .throws)

/-- One base call: no effect, or the region of the named dimension, and nothing else, is replaced. -/
theorem set_frame {names : List String} {sizes : List Nat} {b : Builder} (h : Good names sizes b) (n : String) (st sz : Nat) :
    Frame names sizes [n] (st, sz) b (setStartAndSize b n st sz) ∧
    ((setStartAndSize b n st sz).2 = .throws → (setStartAndSize b n st sz).1 = b) := by
  rcases h.set_cases n st sz with e | ⟨p, hp, hpl, hc, e⟩
  · rw [e]; exact ⟨⟨⟨h, fun _ h => h⟩, fun _ _ => rfl, fun _ _ => Or.inl rfl, Or.inr rfl⟩, fun _ => rfl⟩
  · rw [e]
    have hg := h.write p st sz (if n ∈ b.setDims then b.setDims else n :: b.setDims)
    have hin : getStartAndSize { b with setDims := if n ∈ b.setDims then b.setDims else n :: b.setDims, start := b.start.set p st, size := b.size.set p sz } n = .ok (st, sz) := by
      unfold getStartAndSize getDimPos
      dsimp only
      rw [h.dp, hp]
      have l1 : p < b.start.length := by rw [h.st]; exact hpl
      have l2 : p < b.size.length := by rw [h.sz]; exact hpl
      simp [at', l1, l2]
    have hout : ∀ m, m ∉ [n] → getStartAndSize { b with setDims := if n ∈ b.setDims then b.setDims else n :: b.setDims, start := b.start.set p st, size := b.size.set p sz } m
        = getStartAndSize b m := by
      intro m hm
      rw [List.mem_singleton] at hm
      unfold getStartAndSize
      dsimp only
      have e1 : getDimPos { b with setDims := if n ∈ b.setDims then b.setDims else n :: b.setDims, start := b.start.set p st, size := b.size.set p sz } m
          = getDimPos b m := rfl
      rw [e1]
      cases hq : getDimPos b m with
      | throws => rfl
      | ub => rfl
      | ok q =>
        have hq' : mapGet (names.zipIdx 0) m = some q := by
          unfold getDimPos at hq
          rw [h.dp] at hq
          cases hg : mapGet (names.zipIdx 0) m with
          | none => rw [hg] at hq; cases hq
          | some x => rw [hg] at hq; cases hq; rfl
        have hpq : p ≠ q := by
          rintro rfl
          have h1 := zipIdx_get hp
          have h2 := zipIdx_get hq'
          rw [h1] at h2
          exact hm (Option.some.inj h2).symm
        simp only [Res.ok_bind, at', List.getElem?_set_ne hpq]
    refine ⟨⟨⟨hg, fun hn hfit i m st' sz' mx hi hmx hreg => ?_⟩, hout, ?_, Or.inl ⟨rfl, ?_⟩⟩, fun h => by cases h⟩
    · by_cases hmn : m = n
      · subst hmn
        have hip : i = p := by
          have := mapGet_zipIdx names 0 hn i m hi
          rw [hp] at this
          have := Option.some.inj this
          omega
        subst hip
        dsimp only at hreg
        rw [hin] at hreg
        cases hreg
        have hu : (names.map fun _ => false).getD i true = false := by
          rw [List.getD_eq_getElem?_getD, List.getElem?_map, hi]; rfl
        have hs : sizes.getD i 0 = mx := by rw [List.getD_eq_getElem?_getD, hmx]; rfl
        rw [hs] at hc
        exact Nat.le_of_not_lt fun hlt => hc ⟨hu, hlt⟩
      · dsimp only at hreg
        rw [hout m (by simpa using hmn)] at hreg
        exact hfit i m st' sz' mx hi hmx hreg
    · intro m hm
      rw [List.mem_singleton] at hm
      subst hm
      exact Or.inr hin
    · intro m hm
      rw [List.mem_singleton] at hm
      subst hm
      exact hin

theorem toSet_mem (l : List String) (n : String) : n ∈ toSet l ↔ n ∈ l := by
  induction l with
  | nil => simp [toSet]
  | cons x l ih =>
    unfold toSet
    split
    · rw [ih]; simp only [List.mem_cons]
      exact ⟨Or.inr, fun h => h.elim (fun h => by subst h; assumption) id⟩
    · simp [ih]

theorem find_eq (axes : List Axis) (t : AxisType) : find axes t = (axes.filter fun a => a.type = t).head? := by
  unfold find; rw [List.head?_filter]

theorem none_frame {names : List String} {sizes : List Nat} {b : Builder} (h : Good names sizes b) (reg : Nat × Nat) :
    Frame names sizes [] reg b (b, .ok ()) :=
  ⟨⟨h, fun _ h => h⟩, fun _ _ => rfl, fun _ h => (List.not_mem_nil h).elim, Or.inl ⟨rfl, fun _ h => (List.not_mem_nil h).elim⟩⟩

theorem frame_congr {names : List String} {sizes : List Nat} {ds ds' : List String} {reg : Nat × Nat} {b : Builder} {r : Builder × Res Unit}
    (hd : ∀ m, m ∈ ds ↔ m ∈ ds') (h : Frame names sizes ds reg b r) : Frame names sizes ds' reg b r := by
  obtain ⟨h1, h2, h3, h4⟩ := h
  refine ⟨h1, fun m hm => h2 m fun h => hm ((hd m).1 h), fun m hm => h3 m ((hd m).2 hm), h4.imp_left fun h => ⟨h.1, fun m hm => h.2 m ((hd m).2 hm)⟩⟩

theorem ref_frame (axes : List Axis) {names : List String} {sizes : List Nat} {b : Builder} (h : Good names sizes b) (p : Nat) :
    Frame names sizes (aboutReference axes) (p, 1) b (setReferenceTimePos axes b p) := by
  unfold setReferenceTimePos aboutReference reference
  rw [find_eq]
  cases (axes.filter fun a => a.type = .refTime).head? with
  | none => exact none_frame h _
  | some a =>
    cases he : a.explicit with
    | false => simpa [he] using none_frame h _
    | true => simpa [he] using (set_frame h a.name p 1).1

theorem time_frame (axes : List Axis) {names : List String} {sizes : List Nat} {b : Builder} (h : Good names sizes b) (st sz : Nat) :
    Frame names sizes (aboutTime axes) (st, sz) b (setTimeStartAndSize axes b st sz) := by
  unfold setTimeStartAndSize aboutTime
  rw [find_eq]
  cases (axes.filter fun a => a.type = .time).head? with
  | none => exact none_frame h _
  | some t =>
    cases he : t.explicit with
    | true => simpa [he] using (set_frame h t.name st sz).1
    | false =>
      have hm : ∀ m, m ∈ timeDims axes t ↔ m ∈ t.shape.filter fun n => (reference axes).map (·.name) ≠ some n := by
        intro m
        unfold timeDims reference
        rw [find_eq]
        cases (axes.filter fun a => a.type = .refTime).head? with
        | none => simp [toSet_mem]
        | some r =>
          simp only [List.mem_filter, toSet_mem, Option.map_some, decide_eq_true_eq, ne_eq, Option.some.injEq]
          exact and_congr_right fun _ => not_congr eq_comm
      simp only [he, Option.toList_some, List.flatMap_cons, List.flatMap_nil, List.append_nil, Bool.false_eq_true, if_false]
      refine frame_congr hm ?_
      match timeDims axes t with
      | [] => exact ⟨⟨h, fun _ h => h⟩, fun _ _ => rfl, fun _ h => (List.not_mem_nil h).elim, Or.inr rfl⟩
      | [d] => exact (set_frame h d st sz).1
      | d :: d' :: ds => exact ⟨⟨h, fun _ h => h⟩, fun _ _ => rfl, fun _ _ => Or.inl rfl, Or.inr rfl⟩

theorem loop_frame (ty : AxisType) (st sz : Nat) (axes : List Axis) {names : List String} {sizes : List Nat} : ∀ {b : Builder}, Good names sizes b →
    Frame names sizes ((axes.filter fun a => a.type = ty ∧ a.explicit).map (·.name)) (st, sz) b (setLoop ty st sz axes b) := by
  induction axes with
  | nil => intro b h; exact none_frame h _
  | cons a as ih =>
    intro b h
    unfold setLoop
    by_cases hc : a.type = ty ∧ a.explicit = true
    · rw [if_pos hc]
      have hf : ((a :: as).filter fun a => a.type = ty ∧ a.explicit).map (·.name) =
          a.name :: (as.filter fun a => a.type = ty ∧ a.explicit).map (·.name) := by
        rw [List.filter_cons_of_pos (by simpa using hc)]; rfl
      rw [hf]
      obtain ⟨⟨g1, g2, g3, g4⟩, -⟩ := set_frame h a.name st sz
      generalize setStartAndSize b a.name st sz = r at g1 g2 g3 g4
      obtain ⟨b', res⟩ := r
      dsimp only at g1 g2 g3 g4
      rcases g4 with ⟨rfl, g4⟩ | rfl
      · obtain ⟨k1, k2, k3, k4⟩ := ih g1.1
        have g5 := g4 a.name (by simp)
        have k5 : ∀ m ∈ a.name :: (as.filter fun a => a.type = ty ∧ a.explicit).map (·.name),
            getStartAndSize (setLoop ty st sz as b').1 m = getStartAndSize b m ∨ getStartAndSize (setLoop ty st sz as b').1 m = .ok (st, sz) := by
          intro m hm
          by_cases hma : m = a.name
          · subst hma
            by_cases hmm : a.name ∈ (as.filter fun a => a.type = ty ∧ a.explicit).map (·.name)
            · rcases k3 _ hmm with e | e
              · exact Or.inr (e.trans g5)
              · exact Or.inr e
            · exact Or.inr ((k2 _ hmm).trans g5)
          · have hm' := (List.mem_cons.1 hm).resolve_left hma
            rcases k3 _ hm' with e | e
            · exact Or.inl (e.trans (g2 m (by simpa using hma)))
            · exact Or.inr e
        refine ⟨⟨k1.1, fun hn hf => k1.2 hn (g1.2 hn hf)⟩, fun m hm => ?_, k5, k4.imp_left fun ⟨e, h⟩ => ⟨e, fun m hm => ?_⟩⟩
        · rw [List.mem_cons, not_or] at hm
          exact (k2 m hm.2).trans (g2 m (by simpa using hm.1))
        · by_cases hmm : m ∈ (as.filter fun a => a.type = ty ∧ a.explicit).map (·.name)
          · exact h m hmm
          · rcases List.mem_cons.1 hm with rfl | hm'
            · exact (k2 _ hmm).trans g5
            · exact absurd hm' hmm
      · refine ⟨g1, fun m hm => ?_, fun m hm => ?_, Or.inr rfl⟩
        · rw [List.mem_cons, not_or] at hm
          exact g2 m (by simpa using hm.1)
        · by_cases hma : m = a.name
          · exact g3 m (by simpa using hma)
          · exact Or.inl (g2 m (by simpa using hma))
    · rw [if_neg hc]
      have hf : ((a :: as).filter fun a => a.type = ty ∧ a.explicit).map (·.name) =
          (as.filter fun a => a.type = ty ∧ a.explicit).map (·.name) := by
        rw [List.filter_cons_of_neg (by simpa using hc)]
      rw [hf]
      exact ih h

/-- Every call of the derived class. -/
theorem step_frame (axes : List Axis) {names : List String} {sizes : List Nat} {b : Builder} (h : Good names sizes b) (c : Call) :
    Frame names sizes (about axes c) (asked c) b (step axes b c) := by
  cases c with
  | ref p => exact ref_frame axes h p
  | time st sz => exact time_frame axes h st sz
  | axis t st sz =>
    cases t with
    | refTime => exact ref_frame axes h st
    | time => exact time_frame axes h st sz
    | other n => exact loop_frame (.other n) st sz axes h

theorem init_good {names : List String} (hn : names.Nodup) {sizes : List Nat} {b : Builder}
    (hi : init names sizes (names.map fun _ => false) = .ok b) : Good names sizes b ∧ b.start = sizes.map (fun _ => 0) ∧ b.size = sizes := by
  obtain ⟨h1, -, h3, h4⟩ := init_shape hi
  refine ⟨?_, h3, h4⟩
  rw [fill_eq names 0 [] hn (by simp)] at h1
  exact h1

theorem init_fit {names : List String} (hn : names.Nodup) {sizes : List Nat} {b : Builder}
    (hi : init names sizes (names.map fun _ => false) = .ok b) : Fit names sizes b := by
  obtain ⟨h1, h2, h3⟩ := init_good hn hi
  intro i n st sz mx hin hmx hreg
  unfold getStartAndSize getDimPos at hreg
  rw [h1.dp, mapGet_zipIdx names 0 hn i n hin, h2, h3] at hreg
  simp only [Nat.zero_add, Res.ok_bind, at', List.getElem?_map, hmx, Option.map_some] at hreg
  cases hreg
  unfold wadd
  rw [Nat.zero_add]
  exact Nat.mod_le _ _

theorem construct_good {axes : List Axis} {names : List String} (hn : names.Nodup) {sizes : List Nat} {b : Builder}
    (hi : construct axes names sizes = .ok b) :
    Good names sizes b ∧ Fit names sizes b ∧ ∀ m ∈ aboutReference axes, getStartAndSize b m = .ok (0, 1) := by
  unfold construct at hi
  cases h0 : init names sizes (names.map fun _ => false) with
  | throws => rw [h0] at hi; cases hi
  | ub => rw [h0] at hi; cases hi
  | ok b0 =>
    rw [h0, Res.ok_bind] at hi
    obtain ⟨g1, -, -, g4⟩ := ref_frame axes (init_good hn h0).1 0
    generalize setReferenceTimePos axes b0 0 = r at hi g1 g4
    obtain ⟨b', res⟩ := r
    rcases g4 with ⟨e, g4⟩ | e
    · dsimp only at e; subst e
      cases hi
      exact ⟨g1.1, g1.2 hn (init_fit hn h0), g4⟩
    · dsimp only at e; subst e
      cases hi

theorem history_good (axes : List Axis) {names : List String} (hn : names.Nodup) {sizes : List Nat} (cs : List Call) : ∀ {b : Builder},
    Good names sizes b → Fit names sizes b → Good names sizes (history axes b cs) ∧ Fit names sizes (history axes b cs) := by
  induction cs with
  | nil => intro b h hf; exact ⟨h, hf⟩
  | cons c cs ih =>
    intro b h hf
    obtain ⟨g, -⟩ := step_frame axes h c
    exact ih g.1 (g.2 hn hf)

/-- The region of a dimension of the builder. -/
theorem region_ok {names : List String} (hn : names.Nodup) {sizes : List Nat} {b : Builder} (h : Good names sizes b) {i : Nat} {n : String}
    (hi : names[i]? = some n) :
    ∃ st sz mx, getDimPos b n = .ok i ∧ at' b.start i = .ok st ∧ at' b.size i = .ok sz ∧ at' b.maxSize i = .ok mx ∧ sizes[i]? = some mx ∧
      getStartAndSize b n = .ok (st, sz) := by
  have hl : i < names.length := (List.getElem?_eq_some_iff.1 hi).1
  have hp : getDimPos b n = .ok i := by
    unfold getDimPos
    rw [h.dp, mapGet_zipIdx names 0 hn i n hi, Nat.zero_add]
  have l1 : i < b.start.length := by rw [h.st]; exact hl
  have l2 : i < b.size.length := by rw [h.sz]; exact hl
  have l3 : i < sizes.length := by rw [h.ls]; exact hl
  refine ⟨b.start[i], b.size[i], sizes[i], hp, by simp [at', l1], by simp [at', l2], by simp [at', h.mx, l3], by simp [l3], ?_⟩
  unfold getStartAndSize
  rw [hp]
  simp [at', l1, l2]

theorem set_ok {names : List String} (hn : names.Nodup) {sizes : List Nat} {b : Builder} (h : Good names sizes b) {i : Nat} {n : String}
    (hi : names[i]? = some n) {mx : Nat} (hm : sizes[i]? = some mx) {st sz : Nat} (hs : wadd st sz ≤ mx) :
    (setStartAndSize b n st sz).2 = .ok () := by
  have hl : i < names.length := (List.getElem?_eq_some_iff.1 hi).1
  unfold setStartAndSize
  obtain ⟨-, -, mx', hp, -, -, hmx, hmx', -⟩ := region_ok hn h hi
  rw [hm] at hmx'
  cases hmx'
  have hu : at' b.unlimited i = .ok false := by
    unfold at'; rw [h.un, List.getElem?_map, hi]; rfl
  rw [hp]
  dsimp only
  rw [hu, hmx]
  dsimp only
  rw [if_neg (by omega), if_neg (by rw [h.st]; omega), if_neg (by rw [h.sz]; omega)]

theorem takeOver_ok {names : List String} (hn : names.Nodup) {sizes : List Nat} {b : Builder} (h : Good names sizes b) (hf : Fit names sizes b)
    {ts : List String} (ht : ts.Nodup) {mx : String → Nat} (hmx : ∀ n ∈ ts, ∃ i : Nat, names[i]? = some n ∧ sizes[i]? = some (mx n)) :
    ∀ (ns : List String), (∀ n ∈ ns, n ∈ ts) → ns.Nodup → ∀ sb, Good ts (ts.map mx) sb → (∀ n ∈ ts, n ∉ ns → getStartAndSize sb n = getStartAndSize b n) →
    ∃ sb', takeOver b ns sb = .ok sb' ∧ Good ts (ts.map mx) sb' ∧ ∀ n ∈ ts, getStartAndSize sb' n = getStartAndSize b n := by
  intro ns
  induction ns with
  | nil => intro _ _ sb hg ha; exact ⟨sb, rfl, hg, fun n hn => ha n hn (by simp)⟩
  | cons n ns ih =>
    intro hsub hnd sb hg ha
    obtain ⟨i, hi, hmi⟩ := hmx n (hsub n (by simp))
    obtain ⟨st, sz, mx', hp, h1, h2, h3, h4, h5⟩ := region_ok hn h hi
    rw [hmi] at h4
    have hmm := Option.some.inj h4
    subst hmm
    obtain ⟨j, hj⟩ := List.getElem?_of_mem (hsub n (by simp))
    have hok := set_ok ht hg hj (mx := mx n) (by rw [List.getElem?_map, hj]; rfl) (hf i n st sz _ hi hmi h5)
    obtain ⟨⟨g1, g2, -, g4⟩, -⟩ := set_frame hg n st sz
    unfold takeOver
    rw [hp, Res.ok_bind, h1, Res.ok_bind, h2, Res.ok_bind]
    generalize setStartAndSize sb n st sz = r at hok g1 g2 g4
    obtain ⟨sb1, res⟩ := r
    dsimp only at hok g1 g2 g4
    subst hok
    have g5 := (g4.resolve_right (by intro h; cases h)).2 n (by simp)
    refine ih (fun m hm => hsub m (by simp [hm])) (List.nodup_cons.1 hnd).2 sb1 g1.1 fun m hm hmn => ?_
    by_cases hmeq : m = n
    · subst hmeq; rw [g5, h5]
    · rw [g2 m (by simpa using hmeq)]
      exact ha m hm (by simp [hmeq, hmn])

/-! ## Properties -/

/-- C69: after construction and any history of calls, accepted or refused, a further call changes only the regions of the dimensions it is about, each of them
to the region asked for or not at all; if it does not raise, all of them have that region. It never has undefined behaviour. -/
theorem C69_calls_touch_their_axes (axes : List Axis) (names : List String) (hn : names.Nodup) (sizes : List Nat) (b₀ : Builder)
    (hc : construct axes names sizes = .ok b₀) (cs : List Call) (c : Call) :
    let b := history axes b₀ cs
    let r := step axes b c
    (∀ m, m ∉ about axes c → getStartAndSize r.1 m = getStartAndSize b m) ∧
    (∀ m ∈ about axes c, getStartAndSize r.1 m = getStartAndSize b m ∨ getStartAndSize r.1 m = .ok (asked c)) ∧
    ((r.2 = .ok () ∧ ∀ m ∈ about axes c, getStartAndSize r.1 m = .ok (asked c)) ∨ r.2 = .throws) := by
  obtain ⟨h1, h2, -⟩ := construct_good hn hc
  exact (step_frame axes (history_good axes hn cs h1 h2).1 c).2

theorem name_inj {axes : List Axis} (hn : (axes.map (·.name)).Nodup) {a a' : Axis} (h : a ∈ axes) (h' : a' ∈ axes) (he : a.name = a'.name) : a = a' := by
  induction axes with
  | nil => cases h
  | cons x axes ih =>
    rw [List.map_cons, List.nodup_cons] at hn
    rcases List.mem_cons.1 h with rfl | h1
    · rcases List.mem_cons.1 h' with rfl | h2
      · rfl
      · exact absurd (List.mem_map.2 ⟨a', h2, he.symm⟩) hn.1
    · rcases List.mem_cons.1 h' with rfl | h2
      · exact absurd (List.mem_map.2 ⟨a, h1, he⟩ : a'.name ∈ axes.map (·.name)) hn.1
      · exact ih hn.2 h1 h2

theorem asked_of_reference {axes : List Axis} (ha : (axes.map (·.name)).Nodup) {r : Axis} (hr : reference axes = some r) (c : Call)
    (h : r.name ∈ about axes c) : ∃ p, asked c = (p, 1) := by
  have hr' := List.mem_filter.1 (List.mem_of_head? hr)
  have hrt : r.type = .refTime := by simpa using hr'.2
  have ht : r.name ∉ aboutTime axes := by
    unfold aboutTime
    cases hh : (axes.filter fun a => a.type = .time).head? with
    | none => simp
    | some t =>
      have ht' := List.mem_filter.1 (List.mem_of_head? hh)
      have htt : t.type = .time := by simpa using ht'.2
      cases he : t.explicit with
      | true =>
        simp only [Option.toList_some, List.flatMap_cons, List.flatMap_nil, List.append_nil, he, if_true, List.mem_singleton]
        intro e
        have := name_inj ha hr'.1 ht'.1 e
        rw [this, htt] at hrt
        cases hrt
      | false => simp [he, hr]
  cases c with
  | ref p => exact ⟨p, rfl⟩
  | time st sz => exact absurd h ht
  | axis t st sz =>
    cases t with
    | refTime => exact ⟨st, rfl⟩
    | time => exact absurd h ht
    | other n =>
      exfalso
      obtain ⟨a, ha', he⟩ := List.mem_map.1 h
      have ha'' := List.mem_filter.1 ha'
      have := name_inj ha ha''.1 hr'.1 he
      have h2 : a.type = .other n := by have := ha''.2; simp at this; exact this.1
      rw [this, hrt] at h2
      cases h2

/-- C69: with a reference time axis that has a dimension of its own, every slice has exactly one reference time: after construction and after any history of calls,
accepted or refused. -/
theorem C69_one_reference_time (axes : List Axis) (ha : (axes.map (·.name)).Nodup) (names : List String) (hn : names.Nodup) (sizes : List Nat) (b₀ : Builder)
    (hc : construct axes names sizes = .ok b₀) (cs : List Call) (r : Axis) (hr : reference axes = some r) (he : r.explicit = true) :
    ∃ p, getStartAndSize (history axes b₀ cs) r.name = .ok (p, 1) := by
  obtain ⟨h1, -, h3⟩ := construct_good hn hc
  have h0 : ∃ p, getStartAndSize b₀ r.name = .ok (p, 1) := ⟨0, h3 _ (by simp [aboutReference, hr, he])⟩
  clear h3 hc
  induction cs generalizing b₀ with
  | nil => exact h0
  | cons c cs ih =>
    obtain ⟨g1, g2, g3, -⟩ := step_frame axes h1 c
    refine ih _ g1.1 ?_
    by_cases hm : r.name ∈ about axes c
    · rcases g3 _ hm with e | e
      · rw [e]; exact h0
      · obtain ⟨p, hp⟩ := asked_of_reference ha hr c hm
        rw [e, hp]; exact ⟨p, rfl⟩
    · rw [g2 _ hm]; exact h0

/-- C69: the builder for the time variable has the dimensions of the time axis and, for each of them, the region and the length the builder of the field has. -/
theorem C69_time_variable_slice (axes : List Axis) (names : List String) (hn : names.Nodup) (sizes : List Nat) (b₀ : Builder)
    (hc : construct axes names sizes = .ok b₀) (cs : List Call) (ht : (timeShape axes).Nodup) (hs : ∀ n ∈ timeShape axes, n ∈ names) :
    let b := history axes b₀ cs
    ∃ sb, getTimeVariableSliceBuilder axes b = .ok sb ∧ sb.dimPos = (timeShape axes).zipIdx 0 ∧
      (∀ n ∈ timeShape axes, getStartAndSize sb n = getStartAndSize b n ∧ ∃ x, getStartAndSize b n = .ok x) ∧
      ∀ (i j : Nat) n, (timeShape axes)[i]? = some n → names[j]? = some n → sb.maxSize[i]? = sizes[j]? := by
  obtain ⟨h1, h2, -⟩ := construct_good hn hc
  obtain ⟨g1, g2⟩ := history_good axes hn cs h1 h2
  intro b
  unfold getTimeVariableSliceBuilder
  generalize timeShape axes = ts at *
  -- the length of a dimension
  let mx : String → Nat := fun n => sizes.getD (names.idxOf n) 0
  have hmx : ∀ n ∈ ts, ∃ i : Nat, names[i]? = some n ∧ sizes[i]? = some (mx n) := by
    intro n hnt
    have hl := List.idxOf_lt_length_of_mem (hs n hnt)
    refine ⟨names.idxOf n, by rw [List.getElem?_eq_getElem hl, List.getElem_idxOf hl], ?_⟩
    have hl' : names.idxOf n < sizes.length := by rw [g1.ls]; exact hl
    simp [mx, hl']
  have hm : (ts.mapM fun n => getDimPos b n >>= at' b.maxSize) = .ok (ts.map mx) := by
    have : ∀ l : List String, (∀ n ∈ l, n ∈ ts) → (l.mapM fun n => getDimPos b n >>= at' b.maxSize) = .ok (l.map mx) := by
      intro l
      induction l with
      | nil => intro _; rfl
      | cons n l ih =>
        intro hl
        obtain ⟨i, hi, hmi⟩ := hmx n (hl n (by simp))
        obtain ⟨_, _, mx', hp, -, -, h3, h4, -⟩ := region_ok hn g1 hi
        rw [hmi] at h4
        have := Option.some.inj h4
        rw [← this] at h3
        rw [List.mapM_cons, hp, Res.ok_bind, h3, Res.ok_bind, ih fun m hm => hl m (by simp [hm])]
        rfl
    exact this ts fun _ h => h
  rw [hm, Res.ok_bind]
  cases hi : init ts (ts.map mx) (ts.map fun _ => false) with
  | throws => simp [init] at hi
  | ub => simp [init] at hi
  | ok sb0 =>
    obtain ⟨k1, -⟩ := init_good ht hi
    obtain ⟨sb, e, e1, e2⟩ := takeOver_ok hn g1 g2 ht hmx ts (fun _ h => h) ht sb0 k1 fun n h h' => absurd h h'
    refine ⟨sb, e, e1.dp, fun n hnt => ⟨e2 n hnt, ?_⟩, fun i j n hin hjn => ?_⟩
    · obtain ⟨i, hi, -⟩ := hmx n hnt
      obtain ⟨_, _, _, -, -, -, -, -, h⟩ := region_ok hn g1 hi
      exact ⟨_, h⟩
    · rw [e1.mx, List.getElem?_map, hin]
      obtain ⟨j', hj', hmj⟩ := hmx n (List.mem_of_getElem? hin)
      have h1 := mapGet_zipIdx names 0 hn j n hjn
      rw [mapGet_zipIdx names 0 hn j' n hj'] at h1
      have : j' = j := by have := Option.some.inj h1; omega
      rw [← this, hmj]; rfl

/-- C69: a time axis with a dimension the field does not have: the builder of the time variable raises. -/
theorem C69_time_variable_missing (axes : List Axis) (names : List String) (hn : names.Nodup) (sizes : List Nat) (b₀ : Builder)
    (hc : construct axes names sizes = .ok b₀) (cs : List Call) (n : String) (h : n ∈ timeShape axes) (hx : n ∉ names) :
    getTimeVariableSliceBuilder axes (history axes b₀ cs) = .throws := by
  obtain ⟨h1, h2, -⟩ := construct_good hn hc
  obtain ⟨g1, -⟩ := history_good axes hn cs h1 h2
  unfold getTimeVariableSliceBuilder
  have key : ∀ (l : List String), n ∈ l → (l.mapM fun n => getDimPos (history axes b₀ cs) n >>= at' (history axes b₀ cs).maxSize) = .throws := by
    intro l
    induction l with
    | nil => intro h; cases h
    | cons m l ih =>
      intro hm
      rw [List.mapM_cons]
      rcases g1.getDimPos m with ⟨e, -⟩ | ⟨p, e, hp, hg⟩
      · rw [e]; rfl
      · have hmn : m ∈ names := List.mem_of_getElem? (zipIdx_get hg)
        have hl : n ∈ l := (List.mem_cons.1 hm).resolve_left fun he => hx (he ▸ hmn)
        rw [e, Res.ok_bind, ih hl]
        have : p < (history axes b₀ cs).maxSize.length := by rw [g1.mx, g1.ls]; exact hp
        simp only [at', List.getElem?_eq_getElem this]
        rfl
  rw [key _ h]
  rfl

/-- C69: the axis types are given per dimension, in the order of the dimensions, each that of the axis of that name. -/
theorem C69_axis_types (axes : List Axis) (ha : (axes.map (·.name)).Nodup) (names : List String) (ts : List AxisType) :
    getAxisTypes axes names = .ok ts ↔
      names.length = ts.length ∧ ∀ (i : Nat) n t, names[i]? = some n → ts[i]? = some t → ∃ a ∈ axes, a.name = n ∧ a.type = t := by
  unfold getAxisTypes
  induction names generalizing ts with
  | nil =>
    cases ts with
    | nil => simp [pure]
    | cons t ts => simp [pure]
  | cons n names ih =>
    rw [List.mapM_cons]
    cases hf : axes.find? fun a => a.name = n with
    | none =>
      constructor
      · intro h; cases h
      · rintro ⟨hl, h⟩
        cases ts with
        | nil => cases hl
        | cons t ts =>
          obtain ⟨a, ha', hn, -⟩ := h 0 n t rfl rfl
          have := List.find?_eq_none.1 hf a ha'
          exact absurd hn (by simpa using this)
    | some a =>
      have hmem := List.mem_of_find?_eq_some hf
      have hname : a.name = n := by simpa using List.find?_some hf
      dsimp only
      rw [Res.ok_bind]
      constructor
      · intro h
        cases hr : (names.mapM fun n => match axes.find? fun a => a.name = n with
            | some a => Res.ok a.type
            | none => Res.throws) with
        | throws => rw [hr] at h; cases h
        | ub => rw [hr] at h; cases h
        | ok ts' =>
          rw [hr] at h
          cases h
          obtain ⟨e1, e2⟩ := (ih ts').1 hr
          refine ⟨by simp [e1], fun i m t hi ht => ?_⟩
          cases i with
          | zero => cases hi; cases ht; exact ⟨a, hmem, hname, rfl⟩
          | succ i => exact e2 i m t hi ht
      · rintro ⟨hl, h⟩
        cases ts with
        | nil => cases hl
        | cons t ts =>
          obtain ⟨a', ha', hn', ht'⟩ := h 0 n t rfl rfl
          have := name_inj ha hmem ha' (hname.trans hn'.symm)
          subst this
          have := (ih ts).2 ⟨by simpa using hl, fun i m t hi ht => h (i + 1) m t hi ht⟩
          rw [this, ht']
          rfl

/-! ### Cases, and what does not hold -/

/-- A field on forecast reference time, time step and place, with the valid time depending on both times. -/
def exAxes : List Axis :=
  [⟨"x", .other 1, true, ["x"]⟩, ⟨"step", .other 2, true, ["step"]⟩, ⟨"reftime", .refTime, true, ["reftime"]⟩, ⟨"time", .time, false, ["step", "reftime"]⟩]

/-- The hypotheses of the theorems above, and their conclusions on one history: the refused calls change nothing. -/
theorem C69_case :
    (exAxes.map (·.name)).Nodup ∧ (timeShape exAxes).Nodup ∧ reference exAxes = some ⟨"reftime", .refTime, true, ["reftime"]⟩ ∧
    aboutTime exAxes = ["step"] ∧
    ∃ b₀, construct exAxes ["x", "step", "reftime"] [10, 61, 4] = .ok b₀ ∧
      getStartAndSize b₀ "reftime" = .ok (0, 1) ∧
      let b := history exAxes b₀ [.time 6 3, .ref 4, .ref 2, .axis (.other 1) 8 2, .axis (.other 1) 8 3]
      b.start = [8, 6, 2] ∧ b.size = [2, 3, 1] ∧
      (∃ sb, getTimeVariableSliceBuilder exAxes b = .ok sb ∧ sb.start = [6, 2] ∧ sb.size = [3, 1] ∧ sb.maxSize = [61, 4]) := by
  refine ⟨by decide, by decide, by decide, by decide, _, rfl, rfl, ?_⟩
  exact ⟨by decide, by decide, _, rfl, by decide, by decide, by decide⟩

/-- C69: two axes of one type: the call raises at the second although the first has been set. -/
theorem C69_raising_call_may_have_an_effect :
    ∃ (axes : List Axis) (b₀ : Builder), construct axes ["lat", "lat2"] [10, 5] = .ok b₀ ∧
      (step axes b₀ (.axis (.other 1) 4 6)).2 = .throws ∧
      getStartAndSize b₀ "lat" = .ok (0, 10) ∧ getStartAndSize (step axes b₀ (.axis (.other 1) 4 6)).1 "lat" = .ok (4, 6) :=
  ⟨[⟨"lat", .other 1, true, ["lat"]⟩, ⟨"lat2", .other 1, true, ["lat2"]⟩], _, rfl, by decide, by decide, by decide⟩

end Fimex.SB.CS
