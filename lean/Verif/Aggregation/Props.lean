import Verif.Aggregation.Lemmas

/-!
# Properties C23 to C25: aggregation

Specification of a join along an existing dimension `ud`: the complete joined variable is the
concatenation of the readers' complete data, a reader without the variable (or with other dimensions)
contributing fill values, and a reader without that unlimited dimension contributing nothing.
-/

namespace Fimex.Aggregation

open Slice DataCopy

variable {α : Type}

/-- Number of positions a reader contributes to the joined dimension. -/
def fileLen (ud : String) (f : File α) : Nat := if f.udim = some ud then (f.dims ud).getD 0 else 0

/-- The reader has the variable with the shape and the lengths of the aggregation. -/
def Fits (dims : String → Option Nat) (shape : List String) (f : File α) : Prop :=
  f.shape = some shape ∧ ∀ d ∈ shape, f.udim = some d ∨ dims d = f.dims d

instance (dims : String → Option Nat) (shape : List String) (f : File α) : Decidable (Fits dims shape f) :=
  inferInstanceAs (Decidable (_ ∧ _))

/-- What a reader contributes to the joined variable. -/
def contribution (dims : String → Option Nat) (shape : List String) (ud : String) (bs : Nat) (fill : α)
    (f : File α) : List α :=
  if f.udim = some ud then
    if Fits dims shape f then f.data else List.replicate (fileLen ud f * bs) fill
  else []

/-- The complete joined variable. -/
def joined (dims : String → Option Nat) (shape : List String) (ud : String) (bs : Nat) (fill : α)
    (files : List (File α)) : List α :=
  (files.map (contribution dims shape ud bs fill)).flatten

/-- The aggregation built from a list of readers. -/
def mkJoin (files : List (File α)) (dims : String → Option Nat) : Agg α :=
  ⟨files.findSome? (·.udim), dims, joinExistingEnds none [] files, files⟩

theorem check_iff (a : Agg α) (shape : List String) (f : File α) :
    checkJoinExistingDims a shape f = true ↔ Fits a.dims shape f := by
  unfold checkJoinExistingDims Fits
  cases f.shape with
  | none => simp
  | some s =>
    simp only [Bool.and_eq_true, decide_eq_true_eq, List.all_eq_true, Bool.or_eq_true, Option.some.injEq]
    constructor
    · rintro ⟨rfl, h⟩; exact ⟨rfl, h⟩
    · rintro ⟨rfl, h⟩; exact ⟨rfl, h⟩

theorem ends_some (ud : String) : ∀ (files : List (File α)) (ends : List Nat),
    joinExistingEnds (some ud) ends files = (files.map (fileLen ud)).foldl extendBy ends
  | [], _ => rfl
  | f :: fs, ends => by
    rw [joinExistingEnds, Option.some_or, ends_some ud fs, List.map_cons, List.foldl_cons]
    congr 2
    unfold joinExistingLength fileLen
    cases f.udim with
    | none => simp
    | some n =>
      by_cases h : n = ud
      · subst h; simp
      · simp [h]

theorem ends_none (ud : String) : ∀ (files : List (File α)) (ends : List Nat),
    files.findSome? (·.udim) = some ud →
    joinExistingEnds none ends files = (files.map (fileLen ud)).foldl extendBy ends
  | [], _, h => by simp at h
  | f :: fs, ends, h => by
    rw [joinExistingEnds, Option.none_or, List.map_cons, List.foldl_cons]
    cases hu : f.udim with
    | none =>
      rw [List.findSome?_cons, hu] at h
      rw [ends_none ud fs _ h]
      simp [joinExistingLength, fileLen, hu]
    | some n =>
      rw [List.findSome?_cons, hu] at h
      obtain rfl : n = ud := by simpa using h
      rw [ends_some n fs]
      simp [joinExistingLength, fileLen, hu]

theorem mkJoin_ends (files : List (File α)) (dims : String → Option Nat) (ud : String)
    (hud : files.findSome? (·.udim) = some ud) :
    (mkJoin files dims).ends = endsOf (files.map (fileLen ud)) := by
  rw [mkJoin, ends_none ud files [] hud, foldl_extendBy_nil]

/-- **C23.** A position of the joined dimension belongs to the reader in whose range it lies, with the
position relative to that reader's start; positions behind the last reader belong to none. Readers of
length zero are skipped. -/
theorem C23_position_maps_to_reader (files : List (File α)) (dims : String → Option Nat) (ud : String)
    (hud : files.findSome? (·.udim) = some ud) (p : Nat) :
    (p < (files.map (fileLen ud)).sum →
      ∃ k q, findJoinReader (mkJoin files dims).ends p = some (k, q) ∧
        ∃ h : k < files.length, q < fileLen ud files[k] ∧
          ((files.take k).map (fileLen ud)).sum + q = p) ∧
    ((files.map (fileLen ud)).sum ≤ p → findJoinReader (mkJoin files dims).ends p = none) := by
  rw [mkJoin_ends files dims ud hud]
  obtain ⟨h1, h2⟩ := findJoinReader_spec (files.map (fileLen ud)) p
  refine ⟨fun hp => ?_, h2⟩
  obtain ⟨k, q, h3, h4, h5, h6⟩ := h1 hp
  exact ⟨k, q, h3, by simpa using h4, by simpa using h5, by rw [List.map_take]; exact h6⟩

/-- The hypotheses on the readers that have the variable: data complete for the shape, lengths
representable. -/
def Complete (dims : String → Option Nat) (ns : List String) (ud : String) (files : List (File α)) : Prop :=
  ∀ f ∈ files, f.udim = some ud → Fits dims (ns ++ [ud]) f →
    f.data.length = fileLen ud f * (lengths f.dims ns).prod ∧ fileLen ud f < two64 ∧
    ∀ n ∈ lengths f.dims ns, n < two64

theorem lengths_fits {dims : String → Option Nat} {ns : List String} {ud : String} {f : File α}
    (hf : Fits dims (ns ++ [ud]) f) (hu : f.udim = some ud) (hn : ud ∉ ns) :
    lengths f.dims ns = lengths dims ns := by
  unfold lengths
  apply List.map_congr_left
  intro d hd
  rcases hf.2 d (by simp [hd]) with h | h
  · rw [hu] at h
    exact absurd (by simpa using h.symm : d = ud) (fun e => hn (e ▸ hd))
  · rw [h]

theorem contribution_lengths (files : List (File α)) (dims : String → Option Nat) (ns : List String)
    (ud : String) (fill : α) (hn : ud ∉ ns) (hc : Complete dims ns ud files) :
    (files.map (contribution dims (ns ++ [ud]) ud (lengths dims ns).prod fill)).map List.length =
      (files.map (fileLen ud)).map (· * (lengths dims ns).prod) := by
  rw [List.map_map, List.map_map]
  apply List.map_congr_left
  intro f hf
  simp only [Function.comp_apply, contribution]
  by_cases hu : f.udim = some ud
  · rw [if_pos hu]
    by_cases hfit : Fits dims (ns ++ [ud]) f
    · rw [if_pos hfit, (hc f hf hu hfit).1, lengths_fits hfit hu hn]
    · rw [if_neg hfit, List.length_replicate]
  · rw [if_neg hu]
    simp [fileLen, hu]

/-- The block of the joined variable at a position, in terms of the reader holding it. -/
theorem joined_block (files : List (File α)) (dims : String → Option Nat) (ns : List String) (ud : String)
    (fill : α) (hud : files.findSome? (·.udim) = some ud) (hn : ud ∉ ns) (hc : Complete dims ns ud files)
    (p : Nat) (hp : p < (files.map (fileLen ud)).sum) :
    ∃ k q f, findJoinReader (mkJoin files dims).ends p = some (k, q) ∧ files[k]? = some f ∧ f ∈ files ∧
      f.udim = some ud ∧ q < fileLen ud f ∧
      blk (joined dims (ns ++ [ud]) ud (lengths dims ns).prod fill files) (lengths dims ns).prod p =
        if Fits dims (ns ++ [ud]) f then blk f.data (lengths dims ns).prod q
        else List.replicate (lengths dims ns).prod fill := by
  obtain ⟨k, q, h1, h2, h3, h4⟩ := (C23_position_maps_to_reader files dims ud hud p).1 hp
  have hu : files[k].udim = some ud := by
    by_contra hne
    simp [fileLen, hne] at h3
  refine ⟨k, q, files[k], h1, List.getElem?_eq_getElem h2, List.getElem_mem h2, hu, h3, ?_⟩
  have := blk_flatMap (files.map (contribution dims (ns ++ [ud]) ud (lengths dims ns).prod fill))
    (files.map (fileLen ud)) (lengths dims ns).prod (contribution_lengths files dims ns ud fill hn hc) k q
    (by simpa using h2) (by simpa using h2) (by simpa using h3)
  rw [← List.map_take, h4] at this
  rw [joined, this]
  simp only [List.getElem_map, contribution, hu, if_true]
  by_cases hfit : Fits dims (ns ++ [ud]) files[k]
  · rw [if_pos hfit, if_pos hfit]
  · rw [if_neg hfit, if_neg hfit]
    have : (q + 1) * (lengths dims ns).prod ≤ fileLen ud files[k] * (lengths dims ns).prod :=
      Nat.mul_le_mul_right _ h3
    rw [Nat.succ_mul] at this
    simp only [blk, List.drop_replicate, List.take_replicate]
    congr 1
    omega

theorem map_snoc_names (ns : List String) (ud : String) (hn : ud ∉ ns) (g : String → Nat) (x : Nat) :
    ((ns ++ [ud]).map fun d => if some ud = some d then x else g d) = ns.map g ++ [x] := by
  rw [List.map_append]
  congr 1
  · apply List.map_congr_left
    intro d hd
    rw [if_neg]
    intro h
    exact hn ((by simpa using h : ud = d) ▸ hd)
  · simp

/-- **C23.** Reading position `p` of the joined dimension gives the block `p` of the concatenation; behind
the end nothing is returned. -/
theorem C23_position_reads_concatenation (files : List (File α)) (dims : String → Option Nat)
    (ns : List String) (ud : String) (fill : α) (hud : files.findSome? (·.udim) = some ud) (hn : ud ∉ ns)
    (hc : Complete dims ns ud files) (p : Nat) :
    let bs := (lengths dims ns).prod
    joinExistingAt (mkJoin files dims) (ns ++ [ud]) fill p =
      .ok (if p < (files.map (fileLen ud)).sum then
        some (((joined dims (ns ++ [ud]) ud bs fill files).drop (p * bs)).take bs) else none) := by
  dsimp only
  by_cases hp : p < (files.map (fileLen ud)).sum
  · obtain ⟨k, q, f, h1, h2, hmem, hu, hq, hb⟩ := joined_block files dims ns ud fill hud hn hc p hp
    rw [if_pos hp]
    simp only [blk] at hb
    rw [hb]
    have h2' : (mkJoin files dims).files[k]? = some f := h2
    unfold joinExistingAt
    rw [h1]
    simp only
    rw [h2']
    simp only
    by_cases hfit : Fits dims (ns ++ [ud]) f
    · rw [if_pos ((check_iff _ _ _).2 hfit), if_pos hfit]
      obtain ⟨hlen, hl64, hd64⟩ := hc f hmem hu hfit
      have hlf := lengths_fits hfit hu hn
      rw [hlf] at hlen hd64
      have hread : readAtUnlim f (ns ++ [ud]) q = .ok ((f.data.drop (q * (lengths dims ns).prod)).take (lengths dims ns).prod) := by
        unfold readAtUnlim
        rw [hu, map_snoc_names ns ud hn (fun _ => 0) q,
          map_snoc_names ns ud hn (fun d => (f.dims d).getD 0) 1]
        have e1 : lengths f.dims (ns ++ [ud]) = lengths dims ns ++ [fileLen ud f] := by
          rw [← hlf]; simp [lengths, fileLen, hu]
        have e2 : ns.map (fun d => (f.dims d).getD 0) = lengths dims ns := hlf
        have e3 : ns.map (fun _ => 0) = (lengths dims ns).map fun _ => 0 := by simp [lengths]
        rw [e1, e2, e3]
        have hr : RegionIn (lengths dims ns) ((lengths dims ns).map fun _ => 0) (lengths dims ns) := by
          generalize lengths dims ns = l
          induction l with
          | nil => trivial
          | cons a l ih => exact ⟨by simp, ih⟩
        rw [slice_one_block f.data _ _ _ _ q hlen hq hl64 hr hd64,
          C05_full_slice_is_identity _ _ hd64 (blk_length _ _ _ _ hlen hq).symm]
        rfl
      rw [hread]
      rfl
    · rw [if_neg (fun h => hfit ((check_iff _ _ _).1 h)), if_neg hfit]
      congr 3
      unfold otherSize
      congr 2
      have : (mkJoin files dims).udim = some ud := hud
      rw [this, List.filter_append, List.filter_eq_self.2]
      · simp
      · intro d hd
        simp only [ne_eq, Option.some.injEq, decide_eq_true_eq]
        rintro rfl
        exact hn hd
  · rw [if_neg hp]
    unfold joinExistingAt
    rw [(C23_position_maps_to_reader files dims ud hud p).2 (by omega)]

/-- **C24 helper**: the loop over positions. -/
theorem regionLoop_spec (a : Agg α) (ud : String) (r : Req) (us sz : Nat) (fill : α) (part : Nat → List α)
    (hlen : ∀ i, (part i).length = sz) (total : Nat) (hbig : total * sz < two64) (hsz : sz ≠ 0)
    (hstep : ∀ i, i < total → ∃ k q f, findJoinReader a.ends (us + i) = some (k, q) ∧ a.files[k]? = some f ∧
      (if checkJoinExistingDims a (r.map (·.1)) f = true then readRegion f ud r q = .ok (part i)
       else part i = List.replicate sz fill)) :
    ∀ n i, i + n = total →
      regionLoop a ud r us sz n i ((List.range i).flatMap part ++ List.replicate (n * sz) fill) =
        .ok ((List.range total).flatMap part)
  | 0, i, h => by simp [regionLoop, ← h]
  | n + 1, i, h => by
    obtain ⟨k, q, f, h1, h2, h3⟩ := hstep i (by omega)
    have hpl : ((List.range i).flatMap part).length = i * sz := by
      rw [length_flatMap_const _ _ sz (fun b _ => hlen b)]; simp
    have hnext : (List.range (i + 1)).flatMap part = (List.range i).flatMap part ++ part i := by
      rw [List.range_succ, List.flatMap_append]; simp
    have ih := regionLoop_spec a ud r us sz fill part hlen total hbig hsz hstep n (i + 1) (by omega)
    rw [hnext] at ih
    unfold regionLoop
    rw [h1]
    simp only
    rw [h2]
    simp only
    by_cases hc : checkJoinExistingDims a (r.map (·.1)) f = true
    · rw [if_pos hc] at h3 ⊢
      rw [h3, Res.ok_bind, hlen i, if_neg hsz, if_neg (by simp)]
      have htot : i * sz + (n + 1) * sz = total * sz := by rw [← Nat.add_mul, h]
      have hcp := copyData_append ((List.range i).flatMap part) (List.replicate ((n + 1) * sz) fill) (part i)
        (two64 - 1)
        (by rw [hlen]; have : sz ≤ total * sz := Nat.le_mul_of_pos_left _ (by omega); omega)
        (by rw [hlen, List.length_replicate]; exact Nat.le_mul_of_pos_left _ (by omega))
        (by rw [List.length_append, hpl, List.length_replicate, htot]; exact hbig)
      rw [hpl] at hcp
      rw [hcp, Res.ok_bind, ← ih]
      congr 2
      rw [List.drop_replicate, hlen, Nat.succ_mul]
      congr 1
      omega
    · rw [if_neg hc] at h3 ⊢
      rw [← ih, h3, Nat.succ_mul, Nat.add_comm (n * sz) sz, ← List.replicate_append_replicate]
      simp

theorem requestSizes_snoc (ud : String) (rs : Req) (us uz : Nat) (hn : ud ∉ rs.map (·.1)) :
    requestSizes ud (rs ++ [(ud, us, uz)]) = (us, uz, (rs.map (·.2.2)).prod) := by
  unfold requestSizes
  rw [List.foldl_append]
  have : ∀ (rs : Req) (a b c : Nat), ud ∉ rs.map (·.1) →
      rs.foldl (fun (acc : Nat × Nat × Nat) d =>
        if d.1 = ud then (d.2.1, d.2.2, acc.2.2) else (acc.1, acc.2.1, acc.2.2 * d.2.2)) (a, b, c) =
      (a, b, c * (rs.map (·.2.2)).prod) := by
    intro rs
    induction rs with
    | nil => simp
    | cons d rs ih =>
      intro a b c h
      simp only [List.map_cons, List.mem_cons, not_or] at h
      rw [List.foldl_cons, if_neg (Ne.symm h.1), ih a b _ h.2]
      simp [Nat.mul_assoc]
  rw [this rs 0 0 1 hn]
  simp

/-- **C24.** Reading any region of the joined variable, across any number of readers, gives exactly the
slice of the concatenation. The request lists the dimensions of the variable (`rs`: name, start, size)
followed by the joined dimension. -/
theorem C24_region_equals_slice_of_concatenation (files : List (File α)) (dims : String → Option Nat)
    (rs : Req) (ud : String) (us uz : Nat) (fill : α) (hud : files.findSome? (·.udim) = some ud)
    (hn : ud ∉ rs.map (·.1)) (hc : Complete dims (rs.map (·.1)) ud files)
    (hd : ∀ n ∈ lengths dims (rs.map (·.1)), n < two64) (htot : (files.map (fileLen ud)).sum < two64)
    (hr : RegionIn (lengths dims (rs.map (·.1))) (rs.map (·.2.1)) (rs.map (·.2.2)))
    (hu : us + uz ≤ (files.map (fileLen ud)).sum) (hbig : uz * (rs.map (·.2.2)).prod < two64) :
    joinExistingRegion (mkJoin files dims) ud (rs ++ [(ud, us, uz)]) fill =
      slice (joined dims (rs.map (·.1) ++ [ud]) ud (lengths dims (rs.map (·.1))).prod fill files)
        (lengths dims (rs.map (·.1)) ++ [(files.map (fileLen ud)).sum])
        (rs.map (·.2.1) ++ [us]) (rs.map (·.2.2) ++ [uz]) := by
  generalize hns : rs.map (·.1) = ns at *
  generalize hD : lengths dims ns = D at *
  generalize hJ : joined dims (ns ++ [ud]) ud D.prod fill files = J
  have hJlen : J.length = (files.map (fileLen ud)).sum * D.prod := by
    have := contribution_lengths files dims ns ud fill hn hc
    rw [hD] at this
    rw [← hJ, joined, List.length_flatten, this]
    induction files.map (fileLen ud) with
    | nil => simp
    | cons a l ih => simp [ih, Nat.add_mul]
  have hex : ∀ i, ∃ p : List α, p.length = (rs.map (·.2.2)).prod ∧
      (i < uz → slice (blk J D.prod (us + i)) D (rs.map (·.2.1)) (rs.map (·.2.2)) = .ok p) := by
    intro i
    by_cases hi : i < uz
    · obtain ⟨out, e, h⟩ := slice_total (blk J D.prod (us + i)) D (rs.map (·.2.1)) (rs.map (·.2.2))
        (blk_length _ _ _ _ hJlen (by omega)) hr hd
      exact ⟨out, h, fun _ => e⟩
    · exact ⟨List.replicate _ fill, by rw [List.length_replicate], fun h => absurd h hi⟩
  obtain ⟨part, hpl, hps⟩ : ∃ part : Nat → List α, (∀ i, (part i).length = (rs.map (·.2.2)).prod) ∧
      ∀ i, i < uz → slice (blk J D.prod (us + i)) D (rs.map (·.2.1)) (rs.map (·.2.2)) = .ok (part i) :=
    ⟨fun i => (hex i).choose, fun i => (hex i).choose_spec.1, fun i => (hex i).choose_spec.2⟩
  have hsl := Reader.slice_blocks (blk J D.prod) D (rs.map (·.2.1)) (rs.map (·.2.2))
    (files.map (fileLen ud)).sum us uz (fun a ha => blk_length _ _ _ _ hJlen ha) hr hu hd htot part hps
  rw [flatMap_blk J D.prod _ hJlen] at hsl
  rw [hsl]
  unfold joinExistingRegion
  rw [requestSizes_snoc ud rs us uz (by rw [hns]; exact hn)]
  simp only
  by_cases hz : uz = 0 ∨ (rs.map (·.2.2)).prod = 0
  · rw [if_pos hz]
    congr 1
    rcases hz with hz | hz
    · simp [hz]
    · symm
      rw [List.flatMap_eq_nil_iff]
      intro i _
      exact List.length_eq_zero_iff.1 (by rw [hpl, hz])
  · rw [if_neg hz]
    rw [not_or] at hz
    have := regionLoop_spec (mkJoin files dims) ud (rs ++ [(ud, us, uz)]) us (rs.map (·.2.2)).prod fill part
      hpl uz hbig hz.2 (by
        intro i hi
        obtain ⟨k, q, f, h1, h2, hmem, hfu, hq, hb⟩ := joined_block files dims ns ud fill hud hn hc (us + i)
          (by omega)
        refine ⟨k, q, f, h1, h2, ?_⟩
        have hnames : (rs ++ [(ud, us, uz)]).map (·.1) = ns ++ [ud] := by simp [← hns]
        rw [hnames]
        rw [hD, hJ] at hb
        have hp := hps i hi
        rw [hb] at hp
        by_cases hfit : Fits dims (ns ++ [ud]) f
        · rw [if_pos ((check_iff _ _ _).2 hfit)]
          rw [if_pos hfit] at hp
          obtain ⟨hlen, hl64, hd64⟩ := hc f hmem hfu hfit
          have hlf := lengths_fits hfit hfu hn
          rw [hlf, hD] at hlen hd64
          rw [← hp]
          unfold readRegion
          rw [hnames]
          have e1 : lengths f.dims (ns ++ [ud]) = D ++ [fileLen ud f] := by
            rw [← hD, ← hlf]; simp [lengths, fileLen, hfu]
          have e2 : ∀ (g : Nat × Nat → Nat) (x : Nat),
              ((rs ++ [(ud, us, uz)]).map fun d => if d.1 = ud then x else g d.2) =
                rs.map (fun d => g d.2) ++ [x] := by
            intro g x
            rw [List.map_append]
            congr 1
            · apply List.map_congr_left
              intro d hd
              rw [if_neg]
              intro h
              exact hn (by rw [← hns, ← h]; exact List.mem_map_of_mem hd)
            · simp
          rw [e1, e2 (fun x => x.1) q, e2 (fun x => x.2) 1]
          exact slice_one_block f.data D _ _ _ q hlen hq hl64 hr hd64
        · rw [if_neg (fun h => hfit ((check_iff _ _ _).1 h))]
          rw [if_neg hfit, Reader.slice_replicate fill D _ _ hr hd] at hp
          exact (Res.ok.inj hp).symm) uz 0 (by omega)
    rw [← this]
    simp [Nat.mul_comm]

/-- Three readers, the second without the variable; a region spanning all of them. -/
def exFiles : List (File Nat) :=
  [⟨some "t", fun d => if d = "x" then some 2 else if d = "t" then some 1 else none, some ["x", "t"], [10, 11]⟩,
   ⟨some "t", fun d => if d = "t" then some 2 else none, none, []⟩,
   ⟨none, fun _ => none, none, []⟩,
   ⟨some "t", fun d => if d = "x" then some 2 else if d = "t" then some 2 else none, some ["x", "t"], [50, 51, 60, 61]⟩]

def exDims : String → Option Nat := fun d => if d = "x" then some 2 else if d = "t" then some 5 else none

example : joinExistingAt (mkJoin exFiles exDims) ["x", "t"] 99 3 = .ok (some [50, 51]) := by decide +kernel
example : joinExistingAt (mkJoin exFiles exDims) ["x", "t"] 99 1 = .ok (some [99, 99]) := by decide +kernel
example : joinExistingAt (mkJoin exFiles exDims) ["x", "t"] 99 5 = .ok none := by decide +kernel
example : joinExistingRegion (mkJoin exFiles exDims) "t" [("x", 1, 1), ("t", 0, 5)] 99 =
    .ok [11, 99, 99, 51, 61] := by decide +kernel
example : Complete exDims ["x"] "t" exFiles := by
  intro f hf
  simp only [exFiles, List.mem_cons, List.not_mem_nil, or_false] at hf
  rcases hf with rfl | rfl | rfl | rfl <;>
    simp [Fits, fileLen, lengths, two64]

/-- **C23** for a join along a new dimension: position `p` is the complete variable of reader `p`, if that
reader has it with the shape and the lengths of the aggregation, otherwise fill values only (too many, see below);
behind the last reader there is nothing. -/
theorem C23_new_dimension_position_is_reader (files : List (File α)) (ud : Option String)
    (dims : String → Option Nat) (shape : List String) (fill : α) (p : Nat) :
    (∀ f, files[p]? = some f →
      (f.shape = some shape.dropLast ∧ (∀ d ∈ shape.dropLast, dims d = f.dims d) →
        joinNewAt ⟨ud, dims, joinNewEnds [] files, files⟩ shape fill p = .ok (some f.data)) ∧
      (¬ (f.shape = some shape.dropLast ∧ ∀ d ∈ shape.dropLast, dims d = f.dims d) →
        ∃ n, joinNewAt ⟨ud, dims, joinNewEnds [] files, files⟩ shape fill p = .ok (some (List.replicate n fill)))) ∧
    (files.length ≤ p → joinNewAt ⟨ud, dims, joinNewEnds [] files, files⟩ shape fill p = .ok none) := by
  have he : ∀ (files : List (File α)) (ends : List Nat),
      joinNewEnds ends files = (files.map fun _ => 1).foldl extendBy ends := by
    intro fs
    induction fs with
    | nil => intro ends; rfl
    | cons f fs ih => intro ends; rw [joinNewEnds, ih, List.map_cons, List.foldl_cons]
  have hsum : (files.map fun _ => 1).sum = files.length := by simp [List.map_const']
  refine ⟨fun f hf => ?_, fun hp => ?_⟩
  · have hp : p < files.length := by
      by_contra h
      rw [List.getElem?_eq_none (by omega)] at hf
      cases hf
    obtain ⟨k, q, h1, h2, h3, h4⟩ := (findJoinReader_spec (files.map fun _ => 1) p).1 (by omega)
    simp only [List.getElem_map] at h3
    rw [← List.map_take] at h4
    have hk : k ≤ files.length := by simpa using Nat.le_of_lt h2
    have : k = p := by
      simp only [List.map_const', List.length_take, List.sum_replicate_nat, Nat.mul_one] at h4
      omega
    subst this
    unfold joinNewAt
    simp only
    rw [he, foldl_extendBy_nil, h1]
    simp only
    rw [hf]
    simp only
    have hcheck : checkJoinNewDims ⟨ud, dims, endsOf (files.map fun _ => 1), files⟩ shape f = true ↔
        f.shape = some shape.dropLast ∧ ∀ d ∈ shape.dropLast, dims d = f.dims d := by
      unfold checkJoinNewDims
      cases hs : f.shape with
      | none => simp
      | some s =>
        simp only [Bool.and_eq_true, decide_eq_true_eq, List.all_eq_true, Option.some.injEq]
        constructor
        · rintro ⟨rfl, h⟩; exact ⟨rfl, h⟩
        · rintro ⟨rfl, h⟩; exact ⟨rfl, h⟩
    exact ⟨fun h => by rw [if_pos (hcheck.2 h)], fun h => ⟨_, by rw [if_neg (fun e => h (hcheck.1 e))]⟩⟩
  · unfold joinNewAt
    simp only
    rw [he, foldl_extendBy_nil, (findJoinReader_spec (files.map fun _ => 1) p).2 (by omega)]

/-- The code returns too many fill values for a reader that lacks a variable joined along a new dimension:
two readers, variable of two values, the slice of the second reader should have two values. -/
theorem C23_new_dimension_fill_has_wrong_size :
    let files : List (File Nat) := [⟨none, fun d => if d = "x" then some 2 else none, some ["x"], [10, 11]⟩,
      ⟨none, fun _ => none, none, []⟩]
    joinNewAt ⟨some "n", fun d => if d = "x" then some 2 else if d = "n" then some 2 else none,
      joinNewEnds [] files, files⟩ ["x", "n"] 99 1 = .ok (some [99, 99, 99, 99]) := by
  decide +kernel

/-! ## C25 -/

/-- The dataset has the variable. -/
def Dataset.has (d : Dataset) (v : String) : Bool := (d.vars.map (·.1)).contains v

/-- Well-formed: the dimensions of every variable exist, variable names are distinct. -/
def Dataset.WF (d : Dataset) : Prop :=
  (∀ v ∈ d.vars, ∀ n ∈ v.2, (d.dims.lookup n).isSome) ∧ (d.vars.map (·.1)).Nodup

/-- Every known dimension comes from some dataset of the list. -/
def FromSome (all : List Dataset) (dims : List (String × Dim)) : Prop :=
  ∀ p ∈ dims, ∃ d ∈ all, p ∈ d.dims

/-- The datasets agree on every dimension, and there is one unlimited dimension at most. -/
def Agree (all : List Dataset) : Prop :=
  (∀ d ∈ all, ∀ e ∈ all, ∀ p ∈ d.dims, ∀ q ∈ e.dims, p.1 = q.1 → p.2 = q.2) ∧
  (∀ d ∈ all, ∀ e ∈ all, ∀ p ∈ d.dims, ∀ q ∈ e.dims, p.2.unlim = true → q.2.unlim = true → p.1 = q.1)

theorem lookup_mem {β : Type} {l : List (String × β)} {k : String} {v : β} (h : l.lookup k = some v) :
    (k, v) ∈ l := by
  induction l with
  | nil => simp at h
  | cons p l ih =>
    obtain ⟨a, b⟩ := p
    rw [List.lookup_cons] at h
    by_cases hk : k == a
    · simp only [hk] at h
      have : k = a := by simpa using hk
      rw [this, (Option.some.inj h)]
      simp
    · simp only [hk] at h
      exact List.mem_cons_of_mem _ (ih h)

theorem lookup_none_of {β : Type} {l : List (String × β)} {k : String} (h : l.lookup k = none) :
    ∀ p ∈ l, p.1 ≠ k := by
  induction l with
  | nil => simp
  | cons p l ih =>
    obtain ⟨a, b⟩ := p
    rw [List.lookup_cons] at h
    by_cases hk : k == a
    · simp [hk] at h
    · simp only [hk] at h
      intro q hq
      rcases List.mem_cons.1 hq with rfl | hq
      · intro e; exact hk (by simpa using e.symm)
      · exact ih h q hq

theorem checkUnionDims_agree (all : List Dataset) (hag : Agree all) (d : Dataset) (hd : d ∈ all) :
    ∀ (ns : List String) (dims : List (String × Dim)), (∀ n ∈ ns, (d.dims.lookup n).isSome) →
    FromSome all dims →
    ∃ dims', checkUnionDims d ns dims true = .ok (dims', true) ∧ FromSome all dims'
  | [], dims, _, hf => ⟨dims, rfl, hf⟩
  | n :: ns, dims, hw, hf => by
    have hn := hw n (by simp)
    obtain ⟨rDim, hr⟩ := Option.isSome_iff_exists.1 hn
    have hrm := lookup_mem hr
    unfold checkUnionDims
    rw [hr]
    simp only
    cases ha : dims.lookup n with
    | some aDim =>
      obtain ⟨e, he, hp⟩ := hf _ (lookup_mem ha)
      have : aDim = rDim := hag.1 e he d hd _ hp _ hrm rfl
      subst this
      simp only [ne_eq, not_true_eq_false, if_false]
      exact checkUnionDims_agree all hag d hd ns dims (fun m hm => hw m (by simp [hm])) hf
    | none =>
      have hnone := lookup_none_of ha
      have hcond : (rDim.unlim && dims.any fun x => x.2.unlim) = false := by
        rw [Bool.and_eq_false_iff]
        by_contra hc
        rw [not_or] at hc
        obtain ⟨h1, h2⟩ := hc
        simp only [Bool.not_eq_false] at h1 h2
        obtain ⟨x, hx, hxu⟩ := List.any_eq_true.1 h2
        obtain ⟨e, he, hp⟩ := hf x hx
        exact hnone x hx (hag.2 e he d hd x hp _ hrm hxu h1)
      simp only [hcond, Bool.false_eq_true, if_false]
      refine checkUnionDims_agree all hag d hd ns (dims ++ [(n, rDim)]) (fun m hm => hw m (by simp [hm])) ?_
      intro p hp
      rcases List.mem_append.1 hp with hp | hp
      · exact hf p hp
      · rw [List.mem_singleton.1 hp]; exact ⟨d, hd, hrm⟩

theorem lookup_snoc {β : Type} (l : List (String × β)) (k k' : String) (v : β) :
    (l ++ [(k, v)]).lookup k' = (l.lookup k').or (if k' = k then some v else none) := by
  induction l with
  | nil =>
    by_cases h : k' = k
    · simp [List.lookup_cons, h]
    · have : (k' == k) = false := by simpa using h
      simp [List.lookup_cons, this, h]
  | cons p l ih =>
    obtain ⟨a, b⟩ := p
    rw [List.cons_append, List.lookup_cons, List.lookup_cons]
    cases h : (k' == a) with
    | true => simp
    | false => simpa using ih

theorem mem_names {β : Type} {k : Nat} {x v : String} {shape : β} {vs : List (String × β)} (hx : x ≠ v) :
    (if x ∈ ((v, shape) :: vs).map (·.1) then some k else none) =
      if x ∈ vs.map (·.1) then some k else none := by
  by_cases hm : x ∈ vs.map (·.1)
  · rw [if_pos hm, if_pos (by rw [List.map_cons]; exact List.mem_cons_of_mem _ hm)]
  · rw [if_neg hm, if_neg]
    rw [List.map_cons, List.mem_cons, not_or]
    exact ⟨hx, hm⟩

theorem addUnionVars_agree (all : List Dataset) (hag : Agree all) (d : Dataset) (hd : d ∈ all) (k : Nat) :
    ∀ (vs : List (String × List String)) (s : UnionState),
    (∀ v ∈ vs, ∀ n ∈ v.2, (d.dims.lookup n).isSome) → FromSome all s.dims →
    ∃ s', addUnionVars d k vs s = .ok s' ∧ FromSome all s'.dims ∧
      ∀ v, s'.provider.lookup v = (s.provider.lookup v).or (if v ∈ vs.map (·.1) then some k else none)
  | [], s, _, hf => ⟨s, rfl, hf, by simp⟩
  | (v, shape) :: vs, s, hw, hf => by
    unfold addUnionVars
    by_cases hv : (s.provider.lookup v).isSome
    · rw [if_pos hv]
      obtain ⟨s', h1, h2, h3⟩ := addUnionVars_agree all hag d hd k vs s
        (fun x hx => hw x (by simp [hx])) hf
      refine ⟨s', h1, h2, fun x => ?_⟩
      rw [h3 x]
      by_cases hx : x = v
      · subst hx
        obtain ⟨j, hj⟩ := Option.isSome_iff_exists.1 hv
        simp [hj]
      · rw [mem_names hx]
    · rw [if_neg hv]
      obtain ⟨dims', h1, h2⟩ := checkUnionDims_agree all hag d hd shape s.dims
        (fun n hn => hw (v, shape) (by simp) n hn) hf
      rw [h1, Res.ok_bind]
      simp only [if_true]
      obtain ⟨s', h3, h4, h5⟩ := addUnionVars_agree all hag d hd k vs ⟨dims', s.provider ++ [(v, k)]⟩
        (fun x hx => hw x (by simp [hx])) h2
      refine ⟨s', h3, h4, fun x => ?_⟩
      rw [h5 x, lookup_snoc, Option.or_assoc]
      congr 1
      by_cases hx : x = v
      · subst hx
        rw [if_pos rfl, if_pos (show x ∈ ((x, shape) :: vs).map (·.1) by simp)]
        rfl
      · rw [if_neg hx, mem_names hx]
        rfl

theorem addUnion_agree (all : List Dataset) (hag : Agree all) : ∀ (ds : List Dataset) (k : Nat) (s : UnionState),
    (∀ d ∈ ds, d ∈ all ∧ d.WF) → FromSome all s.dims →
    ∃ s', addUnion k ds s = .ok s' ∧
      ∀ v, s'.provider.lookup v = (s.provider.lookup v).or ((ds.findIdx? (·.has v)).map (· + k))
  | [], k, s, _, _ => ⟨s, rfl, by simp⟩
  | d :: ds, k, s, hall, hf => by
    obtain ⟨hd, hwf⟩ := hall d (by simp)
    obtain ⟨s1, h1, h2, h3⟩ := addUnionVars_agree all hag d hd k d.vars s hwf.1 hf
    obtain ⟨s2, h4, h5⟩ := addUnion_agree all hag ds (k + 1) s1 (fun e he => hall e (by simp [he])) h2
    refine ⟨s2, by rw [addUnion, h1, Res.ok_bind, h4], fun v => ?_⟩
    rw [h5 v, h3 v, Option.or_assoc, List.findIdx?_cons]
    congr 1
    by_cases hv : v ∈ d.vars.map (·.1)
    · have hh : d.has v = true := by unfold Dataset.has; rw [List.contains_iff_mem]; exact hv
      rw [if_pos hv, hh]
      simp
    · have hh : d.has v = false := by
        unfold Dataset.has
        rw [Bool.eq_false_iff]
        intro h
        exact hv (List.contains_iff_mem.1 h)
      rw [if_neg hv, hh]
      cases ds.findIdx? (·.has v) with
      | none => simp
      | some j => simp; omega

theorem lookup_const (vs : List (String × List String)) (v : String) :
    (vs.map fun x => (x.1, 0)).lookup v = if v ∈ vs.map (·.1) then some 0 else none := by
  induction vs with
  | nil => simp
  | cons x vs ih =>
    rw [List.map_cons, List.lookup_cons]
    by_cases h : v = x.1
    · simp [h]
    · have : (v == x.1) = false := by simpa using h
      obtain ⟨a, b⟩ := x
      rw [this, mem_names h]
      exact ih

/-- **C25 (partial).** When the datasets agree on their dimensions, the union succeeds and every variable is
read from the first dataset of the list that has it. Missing: the code skips datasets in which the
variable has dimensions that differ from those already known, so in general a later dataset may be used
(`C25_incompatible_provider_is_skipped`). -/
theorem C25_first_provider_partial (ds : List Dataset) (hwf : ∀ d ∈ ds, d.WF) (hag : Agree ds) :
    ∃ s, union ds = .ok s ∧ ∀ v, findUnionReader s v = ds.findIdx? (·.has v) := by
  cases ds with
  | nil => exact ⟨⟨[], []⟩, rfl, fun v => rfl⟩
  | cons d ds =>
    obtain ⟨s, h1, h2⟩ := addUnion_agree (d :: ds) hag ds 1 ⟨d.dims, d.vars.map fun v => (v.1, 0)⟩
      (fun e he => ⟨by simp [he], hwf e (by simp [he])⟩) (fun p hp => ⟨d, by simp, hp⟩)
    refine ⟨s, h1, fun v => ?_⟩
    rw [findUnionReader, h2 v, lookup_const, List.findIdx?_cons]
    by_cases hv : v ∈ d.vars.map (·.1)
    · have hh : d.has v = true := by unfold Dataset.has; rw [List.contains_iff_mem]; exact hv
      rw [if_pos hv, hh]
      simp
    · have hh : d.has v = false := by
        unfold Dataset.has
        rw [Bool.eq_false_iff]
        intro h
        exact hv (List.contains_iff_mem.1 h)
      rw [if_neg hv, hh]
      simp

def exSets : List Dataset :=
  [⟨[("x", ⟨2, false⟩)], [("a", ["x"])]⟩, ⟨[("x", ⟨2, false⟩), ("t", ⟨4, true⟩)], [("b", ["x", "t"]), ("a", ["x"])]⟩,
   ⟨[("t", ⟨4, true⟩)], [("b", ["t"]), ("c", ["t"])]⟩]

example : ((union exSets) >>= fun s => .ok (findUnionReader s "a", findUnionReader s "b", findUnionReader s "c",
    findUnionReader s "d")) = .ok (some 0, some 1, some 2, none) := by decide
example : (∀ d ∈ exSets, d.WF) ∧ Agree exSets := by
  unfold Agree Dataset.WF
  decide

/-- A dataset whose variable has a conflicting dimension length is passed over. -/
theorem C25_incompatible_provider_is_skipped :
    let ds : List Dataset := [⟨[("x", ⟨2, false⟩)], []⟩, ⟨[("x", ⟨3, false⟩)], [("v", ["x"])]⟩,
      ⟨[("x", ⟨2, false⟩)], [("v", ["x"])]⟩]
    ((union ds) >>= fun s => .ok (findUnionReader s "v")) = .ok (some 2) := by
  decide

/-- Dimensions known to the union keep their value. -/
theorem checkUnionDims_extends (d : Dataset) : ∀ (ns : List String) (dims : List (String × Dim)) (ok : Bool) (dims' : List (String × Dim)) (ok' : Bool),
    checkUnionDims d ns dims ok = .ok (dims', ok') →
    (∀ n x, dims.lookup n = some x → dims'.lookup n = some x) ∧ (ok' = true → ok = true) ∧
    (ok' = true → ∀ n ∈ ns, ∃ x, dims'.lookup n = some x ∧ d.dims.lookup n = some x)
  | [], dims, ok, dims', ok', h => by
    have := Res.ok.inj h
    simp only [Prod.mk.injEq] at this
    obtain ⟨rfl, rfl⟩ := this
    exact ⟨fun _ _ h => h, id, by simp⟩
  | n :: ns, dims, ok, dims', ok', h => by
    unfold checkUnionDims at h
    cases hr : d.dims.lookup n with
    | none => rw [hr] at h; cases h
    | some rDim =>
      rw [hr] at h
      simp only at h
      cases ha : dims.lookup n with
      | some aDim =>
        rw [ha] at h
        simp only at h
        by_cases h1 : aDim.unlim ≠ rDim.unlim
        · rw [if_pos h1] at h
          obtain ⟨a, b, _⟩ := checkUnionDims_extends d ns dims false dims' ok' h
          exact ⟨a, fun e => absurd (b e) (by simp), fun e => absurd (b e) (by simp)⟩
        · rw [if_neg h1] at h
          by_cases h2 : rDim.len ≠ aDim.len
          · rw [if_pos h2] at h
            obtain ⟨a, b, _⟩ := checkUnionDims_extends d ns dims false dims' ok' h
            exact ⟨a, fun e => absurd (b e) (by simp), fun e => absurd (b e) (by simp)⟩
          · rw [if_neg h2] at h
            obtain ⟨a, b, c⟩ := checkUnionDims_extends d ns dims ok dims' ok' h
            refine ⟨a, b, fun e m hm => ?_⟩
            rcases List.mem_cons.1 hm with rfl | hm
            · refine ⟨aDim, a _ _ ha, ?_⟩
              rw [hr]
              simp only [ne_eq, not_not] at h1 h2
              cases aDim; cases rDim
              simp_all
            · exact c e m hm
      | none =>
        rw [ha] at h
        simp only at h
        by_cases h1 : (rDim.unlim && dims.any fun x => x.2.unlim) = true
        · rw [if_pos h1] at h
          obtain ⟨a, b, _⟩ := checkUnionDims_extends d ns dims false dims' ok' h
          exact ⟨a, fun e => absurd (b e) (by simp), fun e => absurd (b e) (by simp)⟩
        · rw [if_neg h1] at h
          obtain ⟨a, b, c⟩ := checkUnionDims_extends d ns _ ok dims' ok' h
          refine ⟨fun m x hm => a m x (by rw [lookup_snoc, hm]; rfl), b, fun e m hm => ?_⟩
          rcases List.mem_cons.1 hm with rfl | hm
          · exact ⟨rDim, a _ _ (by rw [lookup_snoc, ha]; simp), hr⟩
          · exact c e m hm

/-- The variables served by the union have, in their dataset, the dimensions shown by the union. -/
def Consistent (ds : List Dataset) (s : UnionState) : Prop :=
  ∀ v k, s.provider.lookup v = some k → ∃ d shape, ds[k]? = some d ∧ (v, shape) ∈ d.vars ∧
    ∀ n ∈ shape, ∃ x, s.dims.lookup n = some x ∧ d.dims.lookup n = some x

theorem addUnionVars_consistent (all : List Dataset) (d : Dataset) (k : Nat) (hk : all[k]? = some d) :
    ∀ (vs : List (String × List String)) (s s' : UnionState), (∀ v ∈ vs, v ∈ d.vars) →
    Consistent all s → addUnionVars d k vs s = .ok s' → Consistent all s'
  | [], s, s', _, hc, h => by rw [← Res.ok.inj h]; exact hc
  | (v, shape) :: vs, s, s', hvs, hc, h => by
    unfold addUnionVars at h
    by_cases hv : (s.provider.lookup v).isSome
    · rw [if_pos hv] at h
      exact addUnionVars_consistent all d k hk vs s s' (fun x hx => hvs x (by simp [hx])) hc h
    · rw [if_neg hv] at h
      cases hcheck : checkUnionDims d shape s.dims true with
      | throws => rw [hcheck] at h; cases h
      | ub => rw [hcheck] at h; cases h
      | ok r =>
        obtain ⟨dims', ok'⟩ := r
        rw [hcheck, Res.ok_bind] at h
        obtain ⟨a, _, c⟩ := checkUnionDims_extends d shape s.dims true dims' ok' hcheck
        refine addUnionVars_consistent all d k hk vs _ s' (fun x hx => hvs x (by simp [hx])) ?_ h
        intro w j hw
        have old : s.provider.lookup w = some j → ∃ d shape, all[j]? = some d ∧ (w, shape) ∈ d.vars ∧
            ∀ n ∈ shape, ∃ x, dims'.lookup n = some x ∧ d.dims.lookup n = some x := by
          intro hw
          obtain ⟨e, sh, h1, h2, h3⟩ := hc w j hw
          refine ⟨e, sh, h1, h2, fun n hn => ?_⟩
          obtain ⟨x, hx1, hx2⟩ := h3 n hn
          exact ⟨x, a n x hx1, hx2⟩
        cases ok' with
        | false => exact old hw
        | true =>
          simp only [if_true] at hw
          rw [lookup_snoc] at hw
          cases ho : s.provider.lookup w with
          | some j' => rw [ho, Option.some_or] at hw; exact old (ho.trans hw)
          | none =>
            rw [ho, Option.none_or] at hw
            by_cases hwv : w = v
            · rw [if_pos hwv] at hw
              obtain rfl := Option.some.inj hw
              subst hwv
              exact ⟨d, shape, hk, hvs _ (by simp), c rfl⟩
            · rw [if_neg hwv] at hw; cases hw

/-- **C25.** Without any agreement between the datasets: whenever the union succeeds, every variable it serves
comes from a dataset that has it, and its dimensions there are those shown by the union. -/
theorem C25_served_variables_fit_union_dimensions (ds : List Dataset) (hwf : ∀ d ∈ ds, d.WF) (s : UnionState)
    (h : union ds = .ok s) : Consistent ds s := by
  cases ds with
  | nil => rw [← Res.ok.inj h]; intro v k hv; simp at hv
  | cons d ds =>
    have key : ∀ (es : List Dataset) (k : Nat) (s0 : UnionState), (d :: ds).drop k = es →
        Consistent (d :: ds) s0 → addUnion k es s0 = .ok s → Consistent (d :: ds) s := by
      intro es
      induction es with
      | nil => intro k s0 _ hc h; rw [← Res.ok.inj h]; exact hc
      | cons e es ih =>
        intro k s0 hdrop hc h
        have hk : (d :: ds)[k]? = some e := by
          have := congrArg List.head? hdrop
          rwa [List.head?_drop] at this
        rw [addUnion] at h
        cases h1 : addUnionVars e k e.vars s0 with
        | throws => rw [h1] at h; cases h
        | ub => rw [h1] at h; cases h
        | ok s1 =>
          rw [h1, Res.ok_bind] at h
          refine ih (k + 1) s1 ?_ (addUnionVars_consistent _ e k hk e.vars s0 s1 (fun _ hv => hv) hc h1) h
          rw [← List.drop_drop, hdrop]
          rfl
    refine key ds 1 _ rfl ?_ h
    intro v k hv
    rw [lookup_const] at hv
    by_cases hmem : v ∈ d.vars.map (·.1)
    · rw [if_pos hmem] at hv
      obtain rfl := Option.some.inj hv
      obtain ⟨⟨v', shape⟩, hvm, rfl⟩ := List.mem_map.1 hmem
      refine ⟨d, shape, rfl, hvm, fun n hn => ?_⟩
      obtain ⟨x, hx⟩ := Option.isSome_iff_exists.1 ((hwf d (by simp)).1 _ hvm n hn)
      exact ⟨x, hx, hx⟩
    · rw [if_neg hmem] at hv; cases hv

end Fimex.Aggregation
