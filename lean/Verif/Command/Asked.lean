import Verif.Command.Props

/-!
# C119: operations and targets

The operations of the processor and of the extractor are those asked for, in their order; the new grid is the one asked for.
-/

namespace Fimex.Command

open History (Act lift modify andThen)
open Spec

variable {R T P : Type}

/-! ## Processor -/

theorem direction_iff (s : String) (d : Bool) : direction s = .ok d ↔ s = if d then "latlon" else "grid" := by
  unfold direction
  by_cases h1 : s = "latlon"
  · subst h1; cases d <;> simp
  · by_cases h2 : s = "grid"
    · subst h2; cases d <;> simp
    · cases d <;> simp [h1, h2]

theorem rotations_mem {env : Env R T P} {o : Opts} {ops : List ProcOp} (h : rotations env o = .ok ops) (op : ProcOp) :
    op ∈ ops ↔ (processRank op = 2 ∨ processRank op = 3) ∧ processes env o op := by
  unfold rotations at h
  by_cases hd : o "process.rotateVector.direction" = []
  · rw [if_neg (by rw [set_iff]; exact fun c => c hd)] at h
    cases h
    constructor
    · intro c; cases c
    · rintro ⟨hr, hp⟩
      cases op <;> simp [processRank] at hr <;> exact absurd hd hp.1.1
  · rw [if_pos ((set_iff _ _).2 hd)] at h
    obtain ⟨d, h1, h⟩ := res_bind h
    obtain ⟨v, h2, h⟩ := res_bind h
    cases h
    rw [direction_iff] at h1
    have ht : ∀ d', towards env o d' ↔ d' = d := by
      intro d'
      unfold towards
      rw [h1]
      cases d <;> cases d' <;> simp [hd]
    have hv : ∀ op, op ∈ v ↔ processRank op = 2 ∧ processes env o op := by
      intro op
      unfold rotateVectors at h2
      by_cases hx : o "process.rotateVector.x" = [] ∨ o "process.rotateVector.y" = []
      · rw [if_neg (by rw [Bool.and_eq_true, set_iff, set_iff]; tauto)] at h2
        by_cases ha : o "process.rotateVector.all" = []
        · rw [if_neg (by rw [set_iff]; exact fun c => c ha)] at h2
          have hn : v = [] := by
            by_cases hg : o "process.rotateVector.angle" = []
            · rw [if_neg (by rw [set_iff]; exact fun c => c hg)] at h2; cases h2
            · rw [if_pos ((set_iff _ _).2 hg)] at h2; cases h2; rfl
          subst hn
          constructor
          · intro c; cases c
          · rintro ⟨hr, hp⟩
            cases op <;> simp [processRank] at hr
            · obtain ⟨-, rfl, p1, rfl, p2, -⟩ := hp; tauto
            · exact absurd ha hp.2.1
        · rw [if_pos ((set_iff _ _).2 ha)] at h2
          cases h2
          rw [List.mem_singleton]
          constructor
          · rintro rfl
            exact ⟨rfl, (ht d).2 rfl, ha, hx⟩
          · rintro ⟨hr, hp⟩
            cases op <;> simp [processRank] at hr
            · obtain ⟨-, rfl, p1, rfl, p2, -⟩ := hp; tauto
            · rw [(ht _).1 hp.1]
      · rw [not_or] at hx
        rw [if_pos (by rw [Bool.and_eq_true, set_iff, set_iff]; exact hx)] at h2
        cases h2
        rw [List.mem_singleton]
        constructor
        · rintro rfl
          exact ⟨rfl, (ht d).2 rfl, rfl, hx.1, rfl, hx.2, rfl, rfl⟩
        · rintro ⟨hr, hp⟩
          cases op <;> simp [processRank] at hr
          · obtain ⟨p0, rfl, p1, rfl, p2, rfl, rfl⟩ := hp
            rw [(ht _).1 p0]
          · obtain ⟨-, -, p⟩ := hp; tauto
    have hg : ∀ op, op ∈ rotateAngles o d ↔ processRank op = 3 ∧ processes env o op := by
      intro op
      unfold rotateAngles
      by_cases hg : o "process.rotateVector.angle" = []
      · rw [if_neg (by rw [set_iff]; exact fun c => c hg)]
        constructor
        · intro c; cases c
        · rintro ⟨hr, hp⟩
          cases op <;> simp [processRank] at hr
          obtain ⟨-, rfl, p⟩ := hp; exact absurd hg p
      · rw [if_pos ((set_iff _ _).2 hg), List.mem_singleton]
        constructor
        · rintro rfl; exact ⟨rfl, (ht d).2 rfl, rfl, hg⟩
        · rintro ⟨hr, hp⟩
          cases op <;> simp [processRank] at hr
          obtain ⟨p0, rfl, -⟩ := hp
          rw [(ht _).1 p0]
    rw [List.mem_append, hv, hg]
    tauto

/-- C119: the operations of the processor are those asked for, deaccumulations before accumulations, these before rotations, vectors before
angles, and the additions at the end. -/
theorem C119_processor {env : Env R T P} {o : Opts} {ops : List ProcOp} (h : processOps env o = .ok ops) :
    (∀ op, op ∈ ops ↔ processes env o op) ∧ ops.Pairwise (fun a b => processRank a ≤ processRank b) := by
  obtain ⟨rot, h1, h⟩ := res_bind h
  cases h
  have hr := rotations_mem h1
  constructor
  · intro op
    simp only [List.mem_append, List.mem_map, hr]
    by_cases hv : o "process.addVerticalVelocity" = []
    · by_cases hg : o "process.addGeopotentialHeight" = []
      · rw [if_neg (by rw [set_iff]; exact fun c => c hv), if_neg (by rw [set_iff]; exact fun c => c hg)]
        cases op <;> simp [processRank, processes, hv, hg]
      · rw [if_neg (by rw [set_iff]; exact fun c => c hv), if_pos ((set_iff _ _).2 hg)]
        cases op <;> simp [processRank, processes, hv, hg]
    · by_cases hg : o "process.addGeopotentialHeight" = []
      · rw [if_pos ((set_iff _ _).2 hv), if_neg (by rw [set_iff]; exact fun c => c hg)]
        cases op <;> simp [processRank, processes, hv, hg]
      · rw [if_pos ((set_iff _ _).2 hv), if_pos ((set_iff _ _).2 hg)]
        cases op <;> simp [processRank, processes, hv, hg]
  · have hrot : rot.Pairwise (fun a b => processRank a ≤ processRank b) := by
      unfold rotations at h1
      by_cases hd : isSet o "process.rotateVector.direction" = true
      · rw [if_pos hd] at h1
        obtain ⟨d, -, h1⟩ := res_bind h1
        obtain ⟨v, h2, h1⟩ := res_bind h1
        cases h1
        have hv : v = [] ∨ ∃ op, v = [op] ∧ processRank op = 2 := by
          unfold rotateVectors at h2
          split at h2
          · cases h2; exact .inr ⟨_, rfl, rfl⟩
          · split at h2
            · cases h2; exact .inr ⟨_, rfl, rfl⟩
            · split at h2
              · cases h2; exact .inl rfl
              · cases h2
        unfold rotateAngles
        rcases hv with rfl | ⟨op, rfl, hop⟩
        · split <;> simp
        · have h3 : processRank (.rotateAngles d (o "process.rotateVector.angle")) = 3 := rfl
          split <;> simp [hop, h3]
      · rw [if_neg hd] at h1
        cases h1
        exact List.Pairwise.nil
    have hk : ∀ op ∈ rot, processRank op = 2 ∨ processRank op = 3 := fun op hop => ((hr op).1 hop).1
    have hmap : ∀ (f : String → ProcOp) (n : Nat) (vs : List String), (∀ v, processRank (f v) = n) →
        (vs.map f).Pairwise (fun a b => processRank a ≤ processRank b) := by
      intro f n vs hf
      rw [List.pairwise_map]
      exact List.pairwise_of_forall (fun a b => by rw [hf, hf])
    have hend : ((if isSet o "process.addVerticalVelocity" then [ProcOp.verticalVelocity] else []) ++
        (if isSet o "process.addGeopotentialHeight" then [ProcOp.geopotentialHeight] else [])).Pairwise
        (fun a b => processRank a ≤ processRank b) := by
      split <;> split <;> simp [processRank]
    have hendr : ∀ op ∈ ((if isSet o "process.addVerticalVelocity" then [ProcOp.verticalVelocity] else []) ++
        (if isSet o "process.addGeopotentialHeight" then [ProcOp.geopotentialHeight] else [])), 4 ≤ processRank op := by
      split <;> split <;> simp [processRank]
    refine List.pairwise_append.2 ⟨hmap _ 0 _ (fun _ => rfl), List.pairwise_append.2 ⟨hmap _ 1 _ (fun _ => rfl),
      List.pairwise_append.2 ⟨hrot, hend, ?_⟩, ?_⟩, ?_⟩
    · intro a ha b hb
      rcases hk a ha with e | e <;> rw [e] <;> have := hendr b hb <;> omega
    · intro a ha b hb
      obtain ⟨v, -, rfl⟩ := List.mem_map.1 ha
      rcases List.mem_append.1 hb with hb | hb
      · have h1 : processRank (.accumulate v) = 1 := rfl
        rcases hk b hb with e | e <;> omega
      · have h1 : processRank (.accumulate v) = 1 := rfl
        have := hendr b hb; omega
    · intro a ha b hb
      obtain ⟨v, -, rfl⟩ := List.mem_map.1 ha
      exact Nat.zero_le _

/-! ## Extractor -/

/-- The conversions one by one. -/
theorem each_get {α : Type} {f : String → Res α} : ∀ {ss : List String} {as : List α}, each f ss = .ok as →
    ∀ (i : Nat) (a : α), as[i]? = some a ↔ ∃ s, ss[i]? = some s ∧ f s = .ok a := by
  intro ss
  induction ss with
  | nil => intro as h i a; cases h; simp
  | cons s ss ih =>
    intro as h i a
    obtain ⟨b, h1, h⟩ := res_bind h
    obtain ⟨bs, h2, h⟩ := res_bind h
    cases h
    cases i with
    | zero => simp [h1, eq_comm]
    | succ i => simpa using ih h2 i a

theorem dimensionOps_get : ∀ {ns : List String} {ss es : List Int} {ops : List (ExtrOp R T)}, dimensionOps ns ss es = .ok ops →
    ops.length = ns.length ∧ ∀ (i : Nat) (op : ExtrOp R T), ops[i]? = some op ↔
      ∃ n s e, ns[i]? = some n ∧ ss[i]? = some s ∧ es[i]? = some e ∧ op = if s = 0 ∧ e = 0 then .first n else .range n s e := by
  intro ns
  induction ns with
  | nil => intro ss es ops h; cases h; simp
  | cons n ns ih =>
    intro ss es ops h
    cases ss with
    | nil => cases h
    | cons s ss =>
      cases es with
      | nil =>
        unfold dimensionOps at h
        split at h <;> cases h
      | cons e es =>
        obtain ⟨r, h1, h⟩ := res_bind h
        cases h
        obtain ⟨hl, hg⟩ := ih h1
        refine ⟨by simp [hl], ?_⟩
        intro i op
        cases i with
        | zero =>
          simp only [List.getElem?_cons_zero, Option.some.injEq]
          constructor
          · intro c; exact ⟨n, s, e, rfl, rfl, rfl, c.symm⟩
          · rintro ⟨_, _, _, rfl, rfl, rfl, c⟩; exact c.symm
        | succ i => simpa using hg i op

theorem reduceOps_mem {env : Env R T P} {o : Opts} {ops : List (ExtrOp R T)} (h : reduceOps env o = .ok ops) (op : ExtrOp R T) :
    op ∈ ops ↔ extractRank op = 0 ∧ extracts env o op := by
  unfold reduceOps at h
  by_cases hn : o "extract.reduceDimension.name" = []
  · rw [if_neg (by rw [set_iff]; exact fun c => c hn)] at h
    cases h
    constructor
    · intro c; cases c
    · rintro ⟨hr, hp⟩
      cases op <;> simp [extractRank] at hr <;> · obtain ⟨i, p, -⟩ := hp; simp [hn] at p
  · rw [if_pos ((set_iff _ _).2 hn)] at h
    obtain ⟨ss, h1, h⟩ := res_bind h
    obtain ⟨es, h2, h⟩ := res_bind h
    have hg := (dimensionOps_get h).2
    rw [List.mem_iff_getElem?]
    constructor
    · rintro ⟨i, hi⟩
      obtain ⟨n, s, e, a, b, c, rfl⟩ := (hg i op).1 hi
      have b' := (each_get h1 i s).1 b
      have c' := (each_get h2 i e).1 c
      by_cases hz : s = 0 ∧ e = 0
      · rw [if_pos hz]
        obtain ⟨rfl, rfl⟩ := hz
        exact ⟨rfl, i, a, b', c'⟩
      · rw [if_neg hz]
        exact ⟨rfl, i, a, b', c', hz⟩
    · rintro ⟨hr, hp⟩
      cases op <;> simp [extractRank] at hr
      · obtain ⟨i, a, b, c⟩ := hp
        exact ⟨i, (hg i _).2 ⟨_, 0, 0, a, (each_get h1 i 0).2 b, (each_get h2 i 0).2 c, by simp⟩⟩
      · obtain ⟨i, a, b, c, hz⟩ := hp
        exact ⟨i, (hg i _).2 ⟨_, _, _, a, (each_get h1 i _).2 b, (each_get h2 i _).2 c, by rw [if_neg hz]⟩⟩

theorem pickLoop_get {env : Env R T P} : ∀ {ns ls : List String} {ops : List (ExtrOp R T)}, pickLoop env ns ls = .ok ops →
    ∀ (i : Nat) (op : ExtrOp R T), ops[i]? = some op ↔
      ∃ n l zs, ns[i]? = some n ∧ ls[i]? = some l ∧ env.ints l = .ok zs ∧ op = .pick n (zs.map Extractor.toSizeT) := by
  intro ns
  induction ns with
  | nil => intro ls ops h i op; cases h; simp
  | cons n ns ih =>
    intro ls ops h i op
    cases ls with
    | nil => cases h
    | cons l ls =>
      obtain ⟨zs, h1, h⟩ := res_bind h
      obtain ⟨r, h2, h⟩ := res_bind h
      cases h
      cases i with
      | zero =>
        simp only [List.getElem?_cons_zero, Option.some.injEq]
        constructor
        · intro c; exact ⟨n, l, zs, rfl, rfl, h1, c.symm⟩
        · rintro ⟨_, _, zs', rfl, rfl, c, d⟩
          rw [h1] at c; cases c; exact d.symm
      | succ i => simpa using ih h2 i op

theorem pickOps_mem {env : Env R T P} {o : Opts} {ops : List (ExtrOp R T)} (h : pickOps env o = .ok ops) (op : ExtrOp R T) :
    op ∈ ops ↔ extractRank op = 1 ∧ extracts env o op := by
  unfold pickOps at h
  by_cases hn : o "extract.pickDimension.name" = []
  · rw [if_neg (by rw [set_iff]; exact fun c => c hn)] at h
    cases h
    constructor
    · intro c; cases c
    · rintro ⟨hr, hp⟩
      cases op <;> simp [extractRank] at hr
      obtain ⟨i, l, zs, p, -⟩ := hp
      simp [hn] at p
  · rw [if_pos ((set_iff _ _).2 hn)] at h
    have hg := pickLoop_get h
    rw [List.mem_iff_getElem?]
    constructor
    · rintro ⟨i, hi⟩
      obtain ⟨n, l, zs, a, b, c, rfl⟩ := (hg i op).1 hi
      exact ⟨rfl, i, l, zs, a, b, c, rfl⟩
    · rintro ⟨hr, hp⟩
      cases op <;> simp [extractRank] at hr
      obtain ⟨i, l, zs, a, b, c, rfl⟩ := hp
      exact ⟨i, (hg i _).2 ⟨_, l, zs, a, b, c, rfl⟩⟩

theorem limit_iff (env : Env R T P) (o : Opts) (k : String) (x t : T) : limit env o k x = .ok t ↔ bound env o k x t := by
  unfold limit bound
  by_cases h : o k = []
  · rw [if_neg (by rw [set_iff]; exact fun c => c h)]
    simp [h, eq_comm]
  · rw [if_pos ((set_iff _ _).2 h)]
    cases env.time (env.value (o k)) <;> simp [h]

theorem timeOps_mem {env : Env R T P} {o : Opts} {ops : List (ExtrOp R T)} (h : timeOps env o = .ok ops) (op : ExtrOp R T) :
    op ∈ ops ↔ extractRank op = 2 ∧ extracts env o op := by
  unfold timeOps at h
  by_cases hn : o "extract.reduceTime.start" ≠ [] ∨ o "extract.reduceTime.end" ≠ []
  · rw [if_pos (by rw [Bool.or_eq_true, set_iff, set_iff]; exact hn)] at h
    obtain ⟨s, h1, h⟩ := res_bind h
    obtain ⟨e, h2, h⟩ := res_bind h
    cases h
    rw [List.mem_singleton]
    constructor
    · rintro rfl
      exact ⟨rfl, hn, (limit_iff _ _ _ _ _).1 h1, (limit_iff _ _ _ _ _).1 h2⟩
    · rintro ⟨hr, hp⟩
      cases op <;> simp [extractRank] at hr
      obtain ⟨-, p1, p2⟩ := hp
      rw [← limit_iff] at p1 p2
      rw [h1] at p1; rw [h2] at p2
      cases p1; cases p2; rfl
  · rw [if_neg (by rw [Bool.or_eq_true, set_iff, set_iff]; exact hn)] at h
    cases h
    constructor
    · intro c; cases c
    · rintro ⟨hr, hp⟩
      cases op <;> simp [extractRank] at hr
      exact absurd hp.1 hn

theorem verticalOps_mem {env : Env R T P} {o : Opts} {ops : List (ExtrOp R T)} (h : verticalOps env o = .ok ops) (op : ExtrOp R T) :
    op ∈ ops ↔ extractRank op = 3 ∧ extracts env o op := by
  unfold verticalOps at h
  by_cases hn : o "extract.reduceVerticalAxis.unit" = []
  · rw [if_neg (by rw [set_iff]; exact fun c => c hn)] at h
    cases h
    constructor
    · intro c; cases c
    · rintro ⟨hr, hp⟩
      cases op <;> simp [extractRank] at hr
      exact absurd hn hp.1
  · rw [if_pos ((set_iff _ _).2 hn)] at h
    by_cases hs : o "extract.reduceVerticalAxis.start" ≠ [] ∧ o "extract.reduceVerticalAxis.end" ≠ []
    · rw [if_pos (by rw [Bool.and_eq_true, set_iff, set_iff]; exact hs)] at h
      obtain ⟨s, h1, h⟩ := res_bind h
      obtain ⟨e, h2, h⟩ := res_bind h
      cases h
      rw [List.mem_singleton]
      constructor
      · rintro rfl
        exact ⟨rfl, hn, rfl, ⟨hs.1, h1⟩, hs.2, h2⟩
      · rintro ⟨hr, hp⟩
        cases op <;> simp [extractRank] at hr
        obtain ⟨-, rfl, ⟨-, p1⟩, -, p2⟩ := hp
        rw [h1] at p1; rw [h2] at p2
        cases p1; cases p2; rfl
    · rw [if_neg (by rw [Bool.and_eq_true, set_iff, set_iff]; exact hs)] at h
      cases h

theorem side_iff (env : Env R T P) (o : Opts) (k : String) (x : R) : side env o k = .ok x ↔ Spec.measure env o k x := by
  unfold side Spec.measure
  by_cases h : o k = []
  · rw [if_neg (by rw [set_iff]; exact fun c => c h)]; simp [h]
  · rw [if_pos ((set_iff _ _).2 h)]; simp [h]

theorem boxOps_mem {env : Env R T P} {o : Opts} {ops : List (ExtrOp R T)} (h : boxOps env o = .ok ops) (op : ExtrOp R T) :
    op ∈ ops ↔ extractRank op = 4 ∧ extracts env o op := by
  unfold boxOps at h
  split at h
  · obtain ⟨s, h1, h⟩ := res_bind h
    obtain ⟨n, h2, h⟩ := res_bind h
    obtain ⟨w, h3, h⟩ := res_bind h
    obtain ⟨e, h4, h⟩ := res_bind h
    cases h
    rw [List.mem_singleton]
    constructor
    · rintro rfl
      exact ⟨rfl, (side_iff _ _ _ _).1 h1, (side_iff _ _ _ _).1 h2, (side_iff _ _ _ _).1 h3, (side_iff _ _ _ _).1 h4⟩
    · rintro ⟨hr, hp⟩
      cases op <;> simp [extractRank] at hr
      obtain ⟨p1, p2, p3, p4⟩ := hp
      rw [← side_iff] at p1 p2 p3 p4
      rw [h1] at p1; rw [h2] at p2; rw [h3] at p3; rw [h4] at p4
      cases p1; cases p2; cases p3; cases p4; rfl
  · rename_i hn
    cases h
    constructor
    · intro c; cases c
    · rintro ⟨hr, hp⟩
      cases op <;> simp [extractRank] at hr
      refine absurd ?_ hn
      rw [Bool.or_eq_true, Bool.or_eq_true, Bool.or_eq_true, set_iff]
      exact .inl (.inl (.inl hp.1.1))

theorem variableOps_mem {env : Env R T P} {o : Opts} (op : ExtrOp R T) :
    op ∈ (variableOps o : List (ExtrOp R T)) ↔ 5 ≤ extractRank op ∧ extracts env o op := by
  unfold variableOps
  rw [List.mem_append, List.mem_map]
  by_cases hs : o "extract.selectVariables" = []
  · rw [if_neg (by rw [set_iff]; exact fun c => c hs)]
    constructor
    · rintro (c | ⟨v, hv, rfl⟩)
      · cases c
      · exact ⟨by simp [extractRank], hv⟩
    · rintro ⟨hr, hp⟩
      cases op <;> simp [extractRank] at hr
      · obtain ⟨rfl, p, -⟩ := hp; exact absurd hs p
      · exact .inr ⟨_, hp, rfl⟩
  · rw [if_pos ((set_iff _ _).2 hs), List.mem_singleton]
    constructor
    · rintro (rfl | ⟨v, hv, rfl⟩)
      · refine ⟨by simp [extractRank], rfl, hs, ?_⟩
        rw [← set_not, Bool.not_eq_true']
      · exact ⟨by simp [extractRank], hv⟩
    · rintro ⟨hr, hp⟩
      cases op <;> simp [extractRank] at hr
      · obtain ⟨rfl, p, q⟩ := hp
        refine .inl ?_
        congr 1
        rw [← set_not] at q
        rw [Bool.eq_iff_iff, q, Bool.not_eq_true']
      · exact .inr ⟨_, hp, rfl⟩

/-- C119: the operations of the extractor are those asked for, dimensions before times, times before the vertical axis, this before the
bounding box; variables are selected and removed at the end, selected first. -/
theorem C119_extractor {env : Env R T P} {o : Opts} {ops : List (ExtrOp R T)} (h : extractOps env o = .ok ops) :
    (∀ op, op ∈ ops ↔ extracts env o op) ∧ ops.Pairwise (fun a b => extractRank a ≤ extractRank b) := by
  obtain ⟨a, ha, h⟩ := res_bind h
  obtain ⟨b, hb, h⟩ := res_bind h
  obtain ⟨c, hc, h⟩ := res_bind h
  obtain ⟨d, hd, h⟩ := res_bind h
  obtain ⟨e, he, h⟩ := res_bind h
  cases h
  have ha := reduceOps_mem ha
  have hb := pickOps_mem hb
  have hc := timeOps_mem hc
  have hd := verticalOps_mem hd
  have he := boxOps_mem he
  have hv : ∀ op, op ∈ (variableOps o : List (ExtrOp R T)) ↔ 5 ≤ extractRank op ∧ extracts env o op := variableOps_mem
  constructor
  · intro op
    simp only [List.mem_append, ha, hb, hc, hd, he, hv]
    cases op <;> simp [extractRank]
  · have hconst : ∀ (n : Nat) (l : List (ExtrOp R T)), (∀ op ∈ l, extractRank op = n) → l.Pairwise (fun a b => extractRank a ≤ extractRank b) := by
      intro n l hl
      exact List.Pairwise.imp_of_mem (fun ha hb _ => by rw [hl _ ha, hl _ hb]) (List.pairwise_of_forall (R := fun _ _ => True) fun _ _ => trivial)
    have hvs : (variableOps o : List (ExtrOp R T)).Pairwise (fun a b => extractRank a ≤ extractRank b) := by
      unfold variableOps
      refine List.pairwise_append.2 ⟨?_, hconst 6 _ ?_, ?_⟩
      · split <;> simp
      · intro op hop; obtain ⟨v, -, rfl⟩ := List.mem_map.1 hop; rfl
      · intro x hx y hy
        obtain ⟨v, -, rfl⟩ := List.mem_map.1 hy
        split at hx
        · rw [List.mem_singleton] at hx; subst hx; simp [extractRank]
        · cases hx
    refine List.pairwise_append.2 ⟨hconst 0 a fun op h => ((ha op).1 h).1, List.pairwise_append.2 ⟨hconst 1 b fun op h => ((hb op).1 h).1,
      List.pairwise_append.2 ⟨hconst 2 c fun op h => ((hc op).1 h).1, List.pairwise_append.2 ⟨hconst 3 d fun op h => ((hd op).1 h).1,
      List.pairwise_append.2 ⟨hconst 4 e fun op h => ((he op).1 h).1, hvs, ?_⟩, ?_⟩, ?_⟩, ?_⟩, ?_⟩
    · intro x hx y hy
      rw [((he x).1 hx).1]
      have := ((hv y).1 hy).1; omega
    all_goals
      intro x hx y hy
      simp only [List.mem_append, ha, hb, hc, hd, he, hv] at hx hy
      omega

/-- C119: dimensions are reduced in the order they are named. -/
theorem C119_dimensions {env : Env R T P} {o : Opts} {ops : List (ExtrOp R T)} (h : reduceOps env o = .ok ops) :
    ops.map (fun op => match op with | .first n => n | .range n _ _ => n | _ => "") = o "extract.reduceDimension.name" := by
  unfold reduceOps at h
  by_cases hn : o "extract.reduceDimension.name" = []
  · rw [if_neg (by rw [set_iff]; exact fun c => c hn)] at h
    cases h; rw [hn]; rfl
  · rw [if_pos ((set_iff _ _).2 hn)] at h
    obtain ⟨ss, h1, h⟩ := res_bind h
    obtain ⟨es, h2, h⟩ := res_bind h
    obtain ⟨hl, hg⟩ := dimensionOps_get h
    apply List.ext_getElem?
    intro i
    rw [List.getElem?_map]
    rcases hi : ops[i]? with _ | op
    · rw [List.getElem?_eq_none_iff] at hi
      rw [Option.map_none, eq_comm, List.getElem?_eq_none_iff]; omega
    · obtain ⟨n, s, e, a, -, -, rfl⟩ := (hg i op).1 hi
      rw [a, Option.map_some]
      split_ifs <;> rfl

end Fimex.Command
