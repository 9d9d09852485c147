import Verif.Command.Asked

/-!
# C119: grids, refusals, files, and configurations that name themselves
-/

namespace Fimex.Command

open History (Act lift modify andThen)
open Spec

variable {R T P : Type}

/-! ## New grids -/

theorem pointsFrom_ok {lon lat : List R} : ∀ {c p : Nat} {ps : List (R × R)}, pointsFrom lon lat p c = .ok ps →
    ps.length = c ∧ ps = ((lon.zip lat).drop p).take c := by
  intro c
  induction c with
  | zero => intro p ps h; cases h; simp
  | succ c ih =>
    intro p ps h
    unfold pointsFrom at h
    split at h
    · rename_i x y hx hy
      obtain ⟨qs, h1, h⟩ := res_bind h
      cases h
      obtain ⟨hl, he⟩ := ih h1
      have hz : (lon.zip lat)[p]? = some (x, y) := List.getElem?_zip_eq_some.2 ⟨hx, hy⟩
      obtain ⟨hp, hz⟩ := List.getElem?_eq_some_iff.1 hz
      refine ⟨by simp [hl], ?_⟩
      rw [List.drop_eq_getElem_cons hp, hz, List.take_succ_cons, he]
    · cases h

theorem cut_ok {lon lat : List R} : ∀ {ns : List String} {cs : List Nat} {p : Nat} {csd : List (String × List (R × R))},
    ns.length = cs.length → cut lon lat p ns cs = .ok csd →
    csd.map (·.1) = ns ∧ csd.map (·.2.length) = cs ∧ (csd.map (·.2)).flatten = ((lon.zip lat).drop p).take cs.sum ∧
      (csd.map (·.2)).flatten.length = cs.sum := by
  intro ns
  induction ns with
  | nil =>
    intro cs p csd hl h
    cases cs with
    | nil => cases h; simp
    | cons c cs => simp at hl
  | cons n ns ih =>
    intro cs p csd hl h
    cases cs with
    | nil => simp at hl
    | cons c cs =>
      obtain ⟨ps, h1, h⟩ := res_bind h
      obtain ⟨r, h2, h⟩ := res_bind h
      cases h
      obtain ⟨i1, i2, i3, i4⟩ := ih (by simpa using hl) h2
      obtain ⟨p1, p2⟩ := pointsFrom_ok h1
      refine ⟨by simp [i1], by simp [i2, p1], ?_, ?_⟩
      · rw [List.map_cons, List.flatten_cons, i3, List.sum_cons, List.take_add, List.drop_drop]
        rw [← p2]
      · rw [List.map_cons, List.flatten_cons, List.length_append, i4, p1, List.sum_cons]

theorem foldl_intSum : ∀ (cs : List Nat) (a : Int), cs.foldl intSum (a.bmod (2 ^ 32)) = (a + (cs.sum : Nat)).bmod (2 ^ 32) := by
  intro cs
  induction cs with
  | nil => intro a; simp
  | cons c cs ih =>
    intro a
    rw [List.foldl_cons, intSum, Int.bmod_add_bmod, ih, List.sum_cons, Nat.cast_add, add_assoc]

/-- The sum as it is computed is that of the counts if these are not more than there are values. -/
theorem pointSum_eq {cs : List Nat} {n : Nat} (hn : n < 2 ^ 63) (hs : cs.sum ≤ n) (h : pointSum cs = n) : cs.sum = n := by
  unfold pointSum at h
  have h0 : cs.foldl intSum 0 = ((cs.sum : Nat) : Int).bmod (2 ^ 32) := by
    have := foldl_intSum cs 0
    simpa using this
  rw [h0] at h
  unfold Extractor.toSizeT two64 at h
  rw [Int.bmod_def] at h
  norm_num at h hn
  split at h <;> omega

theorem optional_iff {α : Type} {env : Env R T P} {o : Opts} {k : String} {f : String → Res α} {d : Option α}
    (h : optional f (textOpt env o k) = .ok d) (x : α) : d = some x ↔ o k ≠ [] ∧ f (env.value (o k)) = .ok x := by
  unfold textOpt at h
  by_cases hk : o k = []
  · rw [if_neg (by rw [set_iff]; exact fun c => c hk)] at h
    cases h; simp [hk]
  · rw [if_pos ((set_iff _ _).2 hk)] at h
    obtain ⟨a, h1, h⟩ := res_bind h
    cases h
    rw [h1]
    simp [hk]

theorem typeOf_iff (env : Env R T P) (o : Opts) (k : String) :
    o k ≠ [] ∧ typeOf env o k = env.value (o k) ∨ o k = [] ∧ typeOf env o k = "double" := by
  unfold typeOf
  by_cases hk : o k = []
  · rw [if_neg (by rw [set_iff]; exact fun c => c hk)]; exact .inr ⟨hk, rfl⟩
  · rw [if_pos ((set_iff _ _).2 hk)]; exact .inl ⟨hk, rfl⟩

/-- C119: the new grid is the one asked for.  The values of cross sections are fewer than 2⁶³, as in any vector. -/
theorem C119_target {env : Env R T P} {o : Opts} {s : Setup P} {t : Target R} (h : target env o = some (.ok (s, t)))
    (hsize : ∀ w l, env.reals w = .ok l → l.length < 2 ^ 63) : aims env o t := by
  unfold target at h
  by_cases h1 : o "interpolate.projString" = []
  · rw [if_neg (by rw [set_iff]; exact fun c => c h1)] at h
    by_cases h2 : o "interpolate.template" = []
    · rw [if_neg (by rw [set_iff]; exact fun c => c h2)] at h
      by_cases h3 : o "interpolate.vcrossNames" = []
      · rw [if_neg (by rw [set_iff]; exact fun c => c h3)] at h
        by_cases h4 : o "interpolate.latitudeValues" = []
        · rw [if_neg (by rw [set_iff]; exact fun c => c h4)] at h; cases h
        · rw [if_pos ((set_iff _ _).2 h4)] at h
          have h := Option.some.inj h
          unfold toPoints at h
          by_cases h5 : o "interpolate.longitudeValues" = []
          · rw [if_neg (by rw [set_iff]; exact fun c => c h5)] at h; cases h
          · rw [if_pos ((set_iff _ _).2 h5)] at h
            obtain ⟨lat, a, h⟩ := res_bind h
            obtain ⟨lon, b, h⟩ := res_bind h
            obtain ⟨s, c, h⟩ := res_bind h
            cases h
            exact ⟨h1, h2, h3, ⟨h4, a⟩, h5, b⟩
      · rw [if_pos ((set_iff _ _).2 h3)] at h
        have h := Option.some.inj h
        unfold toSections at h
        split at h
        · obtain ⟨csd, a, h⟩ := res_bind h
          obtain ⟨s, -, h⟩ := res_bind h
          cases h
          obtain ⟨counts, a1, a⟩ := res_bind a
          obtain ⟨lat, a2, a⟩ := res_bind a
          obtain ⟨lon, a3, a⟩ := res_bind a
          split at a
          · cases a
          · rename_i b1
            split at a
            · cases a
            · rename_i b2
              split at a
              · cases a
              · rename_i b3
                rw [not_not] at b1 b2 b3
                obtain ⟨c1, c2, c3, c4⟩ := cut_ok b1 a
                have hle : counts.sum ≤ lat.length := by
                  rw [c3] at c4
                  simp only [List.drop_zero, List.length_take, List.length_zip] at c4
                  omega
                have hsum := pointSum_eq (hsize _ _ a2) hle b2
                refine ⟨h1, h2, h3, lon, lat, counts, a3, a2, a1, b3.symm, c1, c2, ?_⟩
                rw [c3, List.drop_zero, List.take_of_length_le]
                rw [List.length_zip]; omega
        · cases h
    · rw [if_pos ((set_iff _ _).2 h2)] at h
      have h := Option.some.inj h
      obtain ⟨s, -, h⟩ := res_bind h
      cases h
      exact ⟨h1, h2, rfl⟩
  · rw [if_pos ((set_iff _ _).2 h1)] at h
    have h := Option.some.inj h
    unfold toProjection at h
    split at h
    · rename_i hk
      simp only [Bool.and_eq_true, set_iff] at hk
      obtain ⟨s, -, h⟩ := res_bind h
      obtain ⟨d, hd, h⟩ := res_bind h
      cases h
      exact ⟨⟨h1, rfl⟩, ⟨hk.1.2, rfl⟩, ⟨hk.2, rfl⟩, ⟨hk.1.1.1, rfl⟩, ⟨hk.1.1.2, rfl⟩, typeOf_iff _ _ _, typeOf_iff _ _ _, optional_iff hd⟩
    · cases h

/-! ## Files -/

/-- A file that is written. -/
def isFile : Out R T P → Bool
  | .fill .. => true
  | .write .. => true
  | _ => false

/-- A call that writes no file, however it ends. -/
def Quiet {α : Type} (x : Act (Log R T P) α) : Prop := ∀ l, ((x l).1).filter isFile = l.filter isFile

theorem Quiet.lift {α : Type} (x : Res α) : Quiet (lift x : Act (Log R T P) α) := fun _ => rfl

theorem Quiet.pure {α : Type} (a : α) : Quiet (Pure.pure a : Act (Log R T P) α) := fun _ => rfl

theorem Quiet.bind {α β : Type} {x : Act (Log R T P) α} {f : α → Act (Log R T P) β} (hx : Quiet x) (hf : ∀ a, Quiet (f a)) : Quiet (x >>= f) := by
  intro l
  have h := hx l
  rw [bind_def]
  rcases hr : x l with ⟨l1, _ | _ | _⟩ <;> rw [hr] at h
  · exact (hf _ l1).trans h
  · exact h
  · exact h

theorem Quiet.emit (env : Env R T P) {out : Out R T P} (h : isFile out = false) : Quiet (emit env out) := by
  intro l
  show (l ++ [out]).filter isFile = _
  rw [List.filter_append, List.filter_cons, h]
  simp

theorem Quiet.ite {α : Type} {c : Prop} [Decidable c] {x y : Act (Log R T P) α} (hx : Quiet x) (hy : Quiet y) : Quiet (if c then x else y) := by
  split
  · exact hx
  · exact hy

theorem printed_quiet (env : Env R T P) (o : Opts) (stage : String) (r : Reader R T P) : Quiet (printed env o stage r) := by
  unfold printed
  have h3 : Quiet (if isSet o (stage ++ ".printSize") = true then emit env (.size stage r) else Pure.pure () : Act (Log R T P) Unit) :=
    .ite (.emit env rfl) (.pure _)
  refine .ite (.bind (.emit env rfl) fun _ => ?_) ?_
  · exact .ite (.bind (.emit env rfl) fun _ => h3) h3
  · exact .ite (.bind (.emit env rfl) fun _ => h3) h3

theorem returned_quiet (env : Env R T P) (o : Opts) (stage : String) (x : Res (Reader R T P)) :
    Quiet (History.lift x >>= fun e => printed env o stage e >>= fun _ => Pure.pure e : Act (Log R T P) (Reader R T P)) :=
  .bind (.lift _) fun _ => .bind (printed_quiet _ _ _ _) fun _ => .pure _

theorem tasks_quiet (env : Env R T P) : ∀ (depth : Nat) (o : Opts) (r : Reader R T P), Quiet (tasks env depth o r) := by
  intro depth
  induction depth with
  | zero => intro o r; exact .lift _
  | succ d ih =>
    intro o r
    refine .bind (.lift _) fun r1 => .bind (returned_quiet _ _ _ _) fun r2 => .bind ?_ fun r3 => .bind ?_ fun r4 => .bind ?_ fun r5 =>
      .bind ?_ fun r6 => .bind ?_ fun r7 => .bind (returned_quiet _ _ _ _) fun r8 => ?_
    · exact .ite (returned_quiet _ _ _ _) (.pure _)
    · exact .ite (returned_quiet _ _ _ _) (.pure _)
    · unfold interpolator
      split
      · exact .pure _
      · exact returned_quiet _ _ _ _
    · exact .bind (.lift _) fun c => .ite (returned_quiet _ _ _ _) (.pure _)
    · refine .ite (.bind (returned_quiet _ _ _ _) fun i => .bind ?_ fun j => returned_quiet _ _ _ _) (.pure _)
      exact .ite (.bind (.lift _) fun m => ih m i) (.pure _)
    · exact .ite (returned_quiet _ _ _ _) (.pure _)

/-- C119: nothing is written before all readers are there: if the input cannot be opened, if a stage refuses its options, or if a reader
cannot be built, no file has been touched. -/
theorem C119_no_file (env : Env R T P) (depth : Nat) (o : Opts) (l : Log R T P)
    (h : ∀ l' r, (fileReader env o "input" >>= fun f => tasks env depth o f) l ≠ (l', .ok r)) :
    ((run env depth o l).1).filter isFile = l.filter isFile ∧ (run env depth o l).2 ≠ .ok () := by
  have hq : Quiet (fileReader env o "input" >>= fun f => tasks env depth o f : Act (Log R T P) (Reader R T P)) :=
    .bind (returned_quiet _ _ _ _) fun f => tasks_quiet env depth o f
  have hrun : run env depth o l = andThen (fun r => fillWrite env o r >>= fun _ => writeOut env o r)
      ((fileReader env o "input" >>= fun f => tasks env depth o f) l) := by
    show (fileReader env o "input" >>= fun f => tasks env depth o f >>= fun r => fillWrite env o r >>= fun _ => writeOut env o r) l = _
    rw [bind_def, bind_def]
    rcases fileReader env o "input" l with ⟨l1, _ | _ | _⟩ <;> rfl
  have hl := hq l
  rw [hrun]
  rcases hx : (fileReader env o "input" >>= fun f => tasks env depth o f) l with ⟨l1, r | _ | _⟩
  · exact absurd hx (h l1 r)
  · rw [hx] at hl; exact ⟨hl, fun c => by cases c⟩
  · rw [hx] at hl; exact ⟨hl, fun c => by cases c⟩

/-- The files the options ask for, of a dataset. -/
def Spec.files (env : Env R T P) (o : Opts) (r : Reader R T P) : List (Out R T P) :=
  (if o "output.fillFile" = [] then [] else [.fill (env.value (o "output.fillFile")) (text env o "output.config") r]) ++
  (if o "output.file" = [] then [] else [.write (text env o "output.type") (env.value (o "output.file")) (text env o "output.config") r])

theorem emit_ok {env : Env R T P} {out : Out R T P} {l l' : Log R T P} (h : emit env out l = (l', .ok ())) : l' = l ++ [out] := by
  have := congrArg Prod.fst h
  exact this.symm

/-- C119: a program that comes to its end has written the files asked for and no other, and they are of the dataset at the end of the chain:
the input with the readers asked for on it. -/
theorem C119_run {env : Env R T P} {depth : Nat} {o : Opts} {l : Log R T P} (h : run env depth o [] = (l, .ok ())) :
    ∃ r : Reader R T P, input r = .file (text env o "input.type") (text env o "input.file") (text env o "input.config") (o "input.optional") ∧
      layers r = chain env o ∧ l.filter isFile = Spec.files env o r := by
  obtain ⟨l1, f, h1, h⟩ := bind_ok h
  obtain ⟨l2, r, h2, h⟩ := bind_ok h
  obtain ⟨l3, u, h3, h⟩ := bind_ok h
  obtain ⟨l4, v, h4, h5⟩ := bind_ok h
  have hf : ((fileReader env o "input" []).1).filter isFile = [] := returned_quiet env o "input" _ []
  rw [h1] at hf
  have ht := tasks_quiet env depth o f l1
  rw [h2] at ht
  have hp := printed_quiet env o "output" r l3
  rw [h4] at hp
  obtain ⟨g1, -⟩ := returned h1
  obtain ⟨rfl, -⟩ := made_ok g1
  obtain ⟨c1, c2⟩ := C119_chain h2
  refine ⟨r, c1, c2, ?_⟩
  have e2 : l2.filter isFile = [] := ht.trans hf
  have e3 : l3.filter isFile =
      (if o "output.fillFile" = [] then [] else [.fill (env.value (o "output.fillFile")) (text env o "output.config") r]) := by
    unfold fillWrite at h3
    by_cases hk : o "output.fillFile" = []
    · rw [if_neg (by rw [set_iff]; exact fun c => c hk)] at h3
      obtain ⟨-, rfl⟩ := pure_ok h3
      rw [e2, if_pos hk]
    · rw [if_pos ((set_iff _ _).2 hk)] at h3
      rw [emit_ok h3, List.filter_append, e2, if_neg hk]
      rfl
  have e4 : l4.filter isFile = l3.filter isFile := hp
  unfold Spec.files
  rw [← e3, ← e4]
  by_cases hk : o "output.file" = []
  · rw [if_neg (by rw [set_iff]; exact fun c => c hk)] at h5
    obtain ⟨-, rfl⟩ := pure_ok h5
    rw [if_pos hk, List.append_nil]
  · rw [if_pos ((set_iff _ _).2 hk)] at h5
    rw [emit_ok h5, List.filter_append, if_neg hk]
    rfl

/-! ## Options that are given in vain -/

/-- The outcome is the same if every stage does the same. -/
theorem run_of_stages (env : Env R T P) (depth : Nat) {o o' : Opts} (h0 : fileReader env o "input" = fileReader env o' "input")
    (h1 : ∀ r, processor env o r = processor env o' r) (h2 : ∀ r, quality env o "qualityExtract" r = quality env o' "qualityExtract" r)
    (h3 : ∀ r, extractor env o r = extractor env o' r) (h4 : ∀ r, times env o r = times env o' r)
    (h5 : ∀ r, interpolator env o r = interpolator env o' r) (h6 : ∀ r, vertical env o r = vertical env o' r)
    (h7 : ∀ again r, merger env again o r = merger env again o' r)
    (h8 : ∀ r, quality env o "qualityExtract2" r = quality env o' "qualityExtract2" r) (h9 : ∀ r, ncml env o r = ncml env o' r)
    (ha : ∀ r, fillWrite env o r = fillWrite env o' r) (hb : ∀ r, writeOut env o r = writeOut env o' r) :
    run env depth o = run env depth o' := by
  have ht : tasks env depth o = tasks env depth o' := by
    cases depth with
    | zero => rfl
    | succ d => funext r; simp only [tasks, h1, h2, h3, h4, h5, h6, h7, h8, h9]
  simp only [run, h0, ht, ha, hb]

/-- C119: the end of the time alone is not taken as a reason to extract anything: if none of the other options of the extractor is given,
`extract.reduceTime.end` is accepted and has no effect. -/
theorem C119_time_end (env : Env R T P) (depth : Nat) (o : Opts) (vs : List String)
    (h : some' o ["extract.reduceDimension.name", "extract.pickDimension.name", "extract.removeVariable",
     "extract.selectVariables", "extract.reduceTime.start", "extract.reduceVerticalAxis.unit", "extract.reduceToBoundingBox.south",
     "extract.reduceToBoundingBox.north", "extract.reduceToBoundingBox.west", "extract.reduceToBoundingBox.east"] = false) :
    run env depth (Function.update o "extract.reduceTime.end" vs) = run env depth o := by
  have hs : ∀ ks : List String, ks.contains "extract.reduceTime.end" = false → Same ks (Function.update o "extract.reduceTime.end" vs) o := by
    intro ks hks k hk
    refine Function.update_of_ne ?_ _ _
    rintro rfl
    rw [List.contains_iff_mem.2 hk] at hks; cases hks
  have hw : wantsExtractor o = false := by
    rw [any_set] at h
    simpa only [wantsExtractor, List.any_cons, List.any_nil, Bool.or_false, Bool.or_assoc, Bool.or_self_left] using h
  have hw' : wantsExtractor (Function.update o "extract.reduceTime.end" vs) = false := by
    rw [← hw]
    simp [wantsExtractor, isSet]
  apply run_of_stages
  · exact fileReader_congr env (hs _ (by decide +kernel))
  · exact processor_congr env (hs _ (by decide +kernel))
  · exact quality_congr env (hs _ (by decide +kernel))
  · intro r; unfold extractor; rw [hw, hw', if_neg (by decide), if_neg (by decide)]
  · exact times_congr env (hs _ (by decide +kernel))
  · exact interpolator_congr env (hs _ (by decide +kernel))
  · exact vertical_congr env (hs _ (by decide +kernel))
  · exact fun again => merger_congr env again (hs _ (by decide +kernel))
  · exact quality_congr env (hs _ (by decide +kernel))
  · exact ncml_congr env (hs _ (by decide +kernel))
  · exact fillWrite_congr env (hs _ (by decide +kernel))
  · exact writeOut_congr env (hs _ (by decide +kernel))

/-- The options of the merger without which the others have no effect are left out. -/
def mergeExtras : List String :=
  ["merge.inner.cfg", "merge.keepOuterVariables", "merge.projString", "merge.xAxisValues", "merge.yAxisValues", "merge.xAxisUnit",
   "merge.yAxisUnit", "merge.xAxisType", "merge.yAxisType", "merge.printNcML", "merge.printCS", "merge.printSize"]

/-- C119: a configuration for the inner dataset, or a new grid, does not lead to a merger either. -/
theorem C119_merge_extras (env : Env R T P) (depth : Nat) (o : Opts) (k : String) (hk : k ∈ mergeExtras) (vs : List String)
    (h : some' o ["merge.inner.file", "merge.inner.type", "merge.inner.config", "merge.smoothing", "merge.method"] = false) :
    run env depth (Function.update o k vs) = run env depth o := by
  have hs : ∀ ks : List String, (mergeExtras.all fun k => !ks.contains k) = true → Same ks (Function.update o k vs) o := by
    intro ks hks k' hk'
    refine Function.update_of_ne ?_ _ _
    rintro rfl
    have := List.all_eq_true.1 hks _ hk
    rw [List.contains_iff_mem.2 hk'] at this; cases this
  have hw : wantsMerger o = false := by
    rw [any_set] at h
    simpa only [wantsMerger, List.any_cons, List.any_nil, Bool.or_false, Bool.or_assoc] using h
  have hw' : wantsMerger (Function.update o k vs) = false := by
    rw [← hw]
    have hm := hs ["merge.inner.file", "merge.inner.type", "merge.inner.config", "merge.smoothing", "merge.method"] (by decide +kernel)
    simp only [Same, List.mem_cons, forall_eq_or_imp, List.not_mem_nil, false_imp_iff, implies_true, and_true] at hm
    simp only [wantsMerger, isSet, hm]
  apply run_of_stages
  · exact fileReader_congr env (hs _ (by decide +kernel))
  · exact processor_congr env (hs _ (by decide +kernel))
  · exact quality_congr env (hs _ (by decide +kernel))
  · exact extractor_congr env (hs _ (by decide +kernel))
  · exact times_congr env (hs _ (by decide +kernel))
  · exact interpolator_congr env (hs _ (by decide +kernel))
  · exact vertical_congr env (hs _ (by decide +kernel))
  · intro again r; unfold merger; rw [hw, hw', if_neg (by decide), if_neg (by decide)]
  · exact quality_congr env (hs _ (by decide +kernel))
  · exact ncml_congr env (hs _ (by decide +kernel))
  · exact fillWrite_congr env (hs _ (by decide +kernel))
  · exact writeOut_congr env (hs _ (by decide +kernel))

/-! ## Refusals -/

/-- Options of the extractor that contradict each other or are not complete. -/
def Spec.badExtract (env : Env R T P) (o : Opts) : Prop :=
  (o "extract.reduceVerticalAxis.unit" ≠ [] ∧ (o "extract.reduceVerticalAxis.start" = [] ∨ o "extract.reduceVerticalAxis.end" = [])) ∨
  (∃ k ∈ ["extract.reduceToBoundingBox.south", "extract.reduceToBoundingBox.north", "extract.reduceToBoundingBox.west",
      "extract.reduceToBoundingBox.east"], o k ≠ [] ∧ ∃ k' ∈ ["extract.reduceToBoundingBox.south", "extract.reduceToBoundingBox.north",
      "extract.reduceToBoundingBox.west", "extract.reduceToBoundingBox.east"], o k' = []) ∨
  (o "extract.reduceTime.start" ≠ [] ∧ env.time (env.value (o "extract.reduceTime.start")) = none) ∨
  (o "extract.reduceDimension.start").length < (o "extract.reduceDimension.name").length ∨
  (o "extract.reduceDimension.end").length < (o "extract.reduceDimension.name").length ∨
  (o "extract.pickDimension.list").length < (o "extract.pickDimension.name").length

theorem each_length {α : Type} {f : String → Res α} : ∀ {ss : List String} {as : List α}, each f ss = .ok as → as.length = ss.length := by
  intro ss
  induction ss with
  | nil => intro as h; cases h; rfl
  | cons s ss ih =>
    intro as h
    obtain ⟨b, h1, h⟩ := res_bind h
    obtain ⟨bs, h2, h⟩ := res_bind h
    cases h
    simp [ih h2]

theorem dimensionOps_length : ∀ {ns : List String} {ss es : List Int} {ops : List (ExtrOp R T)}, dimensionOps ns ss es = .ok ops →
    ns.length ≤ ss.length ∧ ns.length ≤ es.length := by
  intro ns
  induction ns with
  | nil => intro ss es ops h; simp
  | cons n ns ih =>
    intro ss es ops h
    cases ss with
    | nil => cases h
    | cons s ss =>
      cases es with
      | nil => unfold dimensionOps at h; split at h <;> cases h
      | cons e es =>
        obtain ⟨r, h1, h⟩ := res_bind h
        have := ih h1
        simp only [List.length_cons]; omega

theorem pickLoop_length {env : Env R T P} : ∀ {ns ls : List String} {ops : List (ExtrOp R T)}, pickLoop env ns ls = .ok ops →
    ns.length ≤ ls.length := by
  intro ns
  induction ns with
  | nil => intro ls ops h; simp
  | cons n ns ih =>
    intro ls ops h
    cases ls with
    | nil => cases h
    | cons l ls =>
      obtain ⟨zs, h1, h⟩ := res_bind h
      obtain ⟨r, h2, h⟩ := res_bind h
      have := ih h2
      simp only [List.length_cons]; omega

/-- C119: incomplete options of the extractor never lead to a dataset. -/
theorem C119_bad_extract {env : Env R T P} {o : Opts} (h : Spec.badExtract env o) (ops : List (ExtrOp R T)) : extractOps env o ≠ .ok ops := by
  intro c
  obtain ⟨a, ha, c⟩ := res_bind c
  obtain ⟨b, hb, c⟩ := res_bind c
  obtain ⟨t, ht, c⟩ := res_bind c
  obtain ⟨v, hv, c⟩ := res_bind c
  obtain ⟨x, hx, c⟩ := res_bind c
  rcases h with ⟨h1, h2⟩ | ⟨k, hk, hk1, k', hk', hk1'⟩ | ⟨h1, h2⟩ | h | h | h
  · unfold verticalOps at hv
    rw [if_pos ((set_iff _ _).2 h1), if_neg (by rw [Bool.and_eq_true, set_iff, set_iff]; tauto)] at hv
    cases hv
  · unfold boxOps at hx
    rw [if_pos (by
      simp only [Bool.or_eq_true, set_iff]
      simp only [List.mem_cons, List.not_mem_nil, or_false] at hk
      rcases hk with rfl | rfl | rfl | rfl <;> tauto)] at hx
    obtain ⟨s, e1, hx⟩ := res_bind hx
    obtain ⟨n, e2, hx⟩ := res_bind hx
    obtain ⟨w, e3, hx⟩ := res_bind hx
    obtain ⟨e, e4, hx⟩ := res_bind hx
    rw [side_iff] at e1 e2 e3 e4
    simp only [List.mem_cons, List.not_mem_nil, or_false] at hk'
    rcases hk' with rfl | rfl | rfl | rfl
    · exact e1.1 hk1'
    · exact e2.1 hk1'
    · exact e3.1 hk1'
    · exact e4.1 hk1'
  · unfold timeOps at ht
    rw [if_pos (by rw [Bool.or_eq_true, set_iff, set_iff]; exact .inl h1)] at ht
    obtain ⟨s, e1, -⟩ := res_bind ht
    rw [limit_iff] at e1
    rcases e1 with ⟨-, e1⟩ | ⟨e1, -⟩
    · rw [h2] at e1; cases e1
    · exact h1 e1
  all_goals
    by_cases hn : (o "extract.reduceDimension.name") = []
    all_goals try (rw [hn] at h; simp at h)
  · unfold reduceOps at ha
    rw [if_pos ((set_iff _ _).2 hn)] at ha
    obtain ⟨ss, e1, ha⟩ := res_bind ha
    obtain ⟨es, e2, ha⟩ := res_bind ha
    have := dimensionOps_length ha
    rw [each_length e1] at this
    omega
  · unfold reduceOps at ha
    rw [if_pos ((set_iff _ _).2 hn)] at ha
    obtain ⟨ss, e1, ha⟩ := res_bind ha
    obtain ⟨es, e2, ha⟩ := res_bind ha
    have := dimensionOps_length ha
    rw [each_length e2] at this
    omega
  all_goals
    by_cases hm : (o "extract.pickDimension.name") = []
    · rw [hm] at h; simp at h
    · unfold pickOps at hb
      rw [if_pos ((set_iff _ _).2 hm)] at hb
      have := pickLoop_length hb
      omega

/-- A dimension with a start but without an end is not refused: the end is read beyond the values. -/
theorem C119_end_missing (n : String) (s : Int) (hs : s ≠ 0) : (dimensionOps [n] [s] [] : Res (List (ExtrOp R T))) = .ub := by
  unfold dimensionOps
  rw [if_neg hs]

/-! ## Configurations that name themselves -/

/-- C119: configurations for the inner dataset each of which asks for a merger and names another one of them never come to an end, however
deep the stack is. -/
theorem C119_endless (env : Env R T P) (S : Opts → Prop)
    (hS : ∀ o, S o → wantsMerger o = true ∧ o "merge.inner.cfg" ≠ [] ∧ ∀ m, env.config (o "merge.inner.cfg") = .ok m → S m) :
    ∀ (depth : Nat) (o : Opts), S o → ∀ (r r' : Reader R T P) (l l' : Log R T P), tasks env depth o r l ≠ (l', .ok r') := by
  intro depth
  induction depth with
  | zero => intro o _ r r' l l' h; cases h
  | succ d ih =>
    intro o ho r r' l l' h
    obtain ⟨hw, hc, hm⟩ := hS o ho
    obtain ⟨l1, r1, h1, h⟩ := bind_ok h
    obtain ⟨l2, r2, h2, h⟩ := bind_ok h
    obtain ⟨l3, r3, h3, h⟩ := bind_ok h
    obtain ⟨l4, r4, h4, h⟩ := bind_ok h
    obtain ⟨l5, r5, h5, h⟩ := bind_ok h
    obtain ⟨l6, r6, h6, h⟩ := bind_ok h
    obtain ⟨l7, r7, h7, h⟩ := bind_ok h
    unfold merger at h7
    rw [if_pos hw] at h7
    obtain ⟨l8, i, -, h7⟩ := bind_ok h7
    obtain ⟨l9, j, h8, -⟩ := bind_ok h7
    unfold innerTasks at h8
    rw [if_pos ((set_iff _ _).2 hc)] at h8
    obtain ⟨l10, m, h9, h8⟩ := bind_ok h8
    obtain ⟨h9, -⟩ := lift_ok h9
    exact ih m (hm m h9) _ _ _ _ h8

/-- A call that has room does the same with more room. -/
def Agree {α : Type} (x y : Act (Log R T P) α) : Prop := ∀ l, (x l).2 ≠ .ub → y l = x l

theorem Agree.refl {α : Type} (x : Act (Log R T P) α) : Agree x x := fun _ _ => rfl

theorem Agree.bind {α β : Type} {x y : Act (Log R T P) α} {f g : α → Act (Log R T P) β} (hx : Agree x y) (hf : ∀ a, Agree (f a) (g a)) :
    Agree (x >>= f) (y >>= g) := by
  intro l h
  rw [bind_def] at h
  rw [bind_def, bind_def]
  have hx := hx l
  rcases hr : x l with ⟨l1, _ | _ | _⟩ <;> rw [hr] at h hx
  · rw [hx (fun c => by cases c)]; exact hf _ l1 h
  · rw [hx (fun c => by cases c)]; rfl
  · exact absurd rfl h

theorem tasks_mono (env : Env R T P) : ∀ (depth : Nat) (o : Opts) (r : Reader R T P), Agree (tasks env depth o r) (tasks env (depth + 1) o r) := by
  intro depth
  induction depth with
  | zero => intro o r l h; exact absurd rfl h
  | succ d ih =>
    intro o r
    refine .bind (.refl _) fun r1 => .bind (.refl _) fun r2 => .bind (.refl _) fun r3 => .bind (.refl _) fun r4 => .bind (.refl _) fun r5 =>
      .bind (.refl _) fun r6 => .bind ?_ fun r7 => .refl _
    unfold merger
    split
    · refine .bind (.refl _) fun i => .bind ?_ fun j => .refl _
      unfold innerTasks
      split
      · exact .bind (.refl _) fun m => ih m i
      · exact .refl _
    · exact .refl _

/-- C119: how deep the stack is matters only if it is too small. -/
theorem C119_depth (env : Env R T P) (depth more : Nat) (o : Opts) (r : Reader R T P) (l : Log R T P)
    (h : (tasks env depth o r l).2 ≠ .ub) : tasks env (depth + more) o r l = tasks env depth o r l := by
  induction more with
  | zero => rfl
  | succ m ih =>
    rw [← ih]
    exact tasks_mono env (depth + m) o r l (by rw [ih]; exact h)

/-! ## Methods of interpolation -/

/-- Specification: the method asked for by an option; the nearest neighbour if the option is not given or names no method. -/
def methodAsked (env : Env R T P) (o : Opts) (k : String) (m : Nat) : Prop :=
  (o k ≠ [] ∧ env.method (env.value (o k)) = some m) ∨ ((o k = [] ∨ env.method (env.value (o k)) = none) ∧ m = env.nearest)

theorem methodOf_asked (env : Env R T P) (o : Opts) (k : String) : methodAsked env o k (methodOf env o k) := by
  unfold methodOf
  by_cases hk : o k = []
  · rw [if_neg (by rw [set_iff]; exact fun c => c hk)]; exact .inr ⟨.inl hk, rfl⟩
  · rw [if_pos ((set_iff _ _).2 hk)]
    cases hm : env.method (env.value (o k)) with
    | none => exact .inr ⟨.inr hm, rfl⟩
    | some m => exact .inl ⟨hk, hm⟩

/-- C119: interpolation uses the method asked for, on the target that the options say, over the reader before it. -/
theorem C119_interpolation {env : Env R T P} {o : Opts} {r r' : Reader R T P} {l l' : Log R T P} (h : interpolator env o r l = (l', .ok r')) :
    (r' = r ∧ target env o = none) ∨
    ∃ m s t, r' = .interpolator m s t r ∧ methodAsked env o "interpolate.method" m ∧ target env o = some (.ok (s, t)) := by
  unfold interpolator at h
  cases ht : target env o with
  | none =>
    rw [ht] at h
    obtain ⟨rfl, -⟩ := pure_ok h
    exact .inl ⟨rfl, rfl⟩
  | some t =>
    rw [ht] at h
    obtain ⟨h, -⟩ := returned h
    obtain ⟨st, hs, h⟩ := res_bind h
    obtain ⟨rfl, -⟩ := made_ok h
    exact .inr ⟨_, st.1, st.2, rfl, methodOf_asked _ _ _, by rw [hs]⟩

/-- C119: the merger has the inner reader inside and the other outside, and the method, smoothing and outer variables asked for. -/
theorem C119_merging {env : Env R T P} {o : Opts} {i r r' : Reader R T P} (h : mergeReader env o i r = .ok r') :
    ∃ s k m g, r' = .merger s k m g i r ∧ methodAsked env o "merge.method" m ∧ (k = true ↔ o "merge.keepOuterVariables" ≠ []) ∧
      (∀ x, s = some x ↔ o "merge.smoothing" ≠ [] ∧ env.smoothing (env.value (o "merge.smoothing")) = .ok x) ∧
      (g = none ↔ o "merge.projString" = []) := by
  unfold mergeReader at h
  obtain ⟨s, hs, h⟩ := res_bind h
  obtain ⟨g, hg, h⟩ := res_bind h
  obtain ⟨rfl, -⟩ := made_ok h
  refine ⟨s, _, _, g, rfl, methodOf_asked _ _ _, set_iff _ _, optional_iff hs, ?_⟩
  unfold mergeGrid at hg
  by_cases hk : o "merge.projString" = []
  · rw [if_neg (by rw [set_iff]; exact fun c => c hk)] at hg
    cases hg
    simp [hk]
  · rw [if_pos ((set_iff _ _).2 hk)] at hg
    split at hg
    · cases hg; simp [hk]
    · cases hg

end Fimex.Command
