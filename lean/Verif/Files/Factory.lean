import Verif.Basic
import Mathlib.Data.List.Basic
import Mathlib.Tactic.Cases

/-!
# Choice of the reader for a file

Model of `src/CDMFileReaderFactory.cc:114-187` (`findFactoryFromFileType`, `findFactoryFromMagic`, `findFactoryFromFileName`,
`findFactory`) and `include/fimex/min_max.h:87-96` (`maximize`), with C61.

The installed factories are a list in the order of the map; what a factory answers to a type, to bytes and to a file name is arbitrary.
Opening and reading a file is `bytes`: `none` if it cannot be opened.  `FileChunkReader::read` (`src/FileChunkReader.cc:64-81`) raises
when the file is shorter than what is asked for.
-/

namespace Fimex.Files

/-! ## Model -/

/-- `IoFactory`. -/
structure Factory where
  id : String
  matchFileTypeName : String → Int
  matchMagicSize : Nat
  matchMagic : List UInt8 → Int
  matchFileName : String → Int

/-- The loop over the factories with `maximize(bestType, ..)`. -/
def bestLoop (score : Factory → Int) : List Factory → Int × Option Factory → Int × Option Factory
  | [], s => s
  | f :: fs, s => bestLoop score fs (if score f > s.1 then (score f, some f) else s)

/-- src/CDMFileReaderFactory.cc:114-123, 150-156 and 158-166. -/
def best (score : Factory → Int) (fs : List Factory) : Option Factory := (bestLoop score fs (0, none)).2

/-- src/CDMFileReaderFactory.cc:127-130. -/
def magicSize : List Factory → Nat → Nat
  | [], n => n
  | f :: fs, n => magicSize fs (if f.matchMagicSize > n then f.matchMagicSize else n)

/-- src/FileChunkReader.cc:64-81 `read(0, count, ..)`; `none`: an exception. -/
def readBytes (bytes : Option (List UInt8)) (count : Nat) : Option (List UInt8) :=
  match bytes with
  | none => none
  | some b => if count ≤ b.length then some (b.take count) else none

/-- src/CDMFileReaderFactory.cc:125-156 `findFactoryFromMagic`. -/
def fromMagic (fs : List Factory) (bytes : Option (List UInt8)) : Option Factory :=
  match readBytes bytes (magicSize fs 0) with
  | none => none
  | some magic => best (fun f => f.matchMagic magic) fs

/-- src/CDMFileReaderFactory.cc:168-185 `findFactory`. -/
def findFactory (fs : List Factory) (fileTypeName fileName : String) (bytes : Option (List UInt8)) (write : Bool) : Option Factory :=
  match (if fileTypeName ≠ "" then best (fun f => f.matchFileTypeName fileTypeName) fs else none) with
  | some f => some f
  | none =>
    match (if ¬ write then fromMagic fs bytes else none) with
    | some f => some f
    | none => best (fun f => f.matchFileName fileName) fs

/-- src/CDMFileReaderFactory.cc:191-214: the factory that is asked to create the reader, or an exception. -/
def create (fs : List Factory) (fileTypeName fileName : String) (bytes : Option (List UInt8)) : Res Factory :=
  match findFactory fs fileTypeName fileName bytes false with
  | some f => .ok f
  | none => .throws

/-! ## Specification -/

/-- `f` has the highest score, which is positive, and no factory before it has that score. -/
def IsBest (score : Factory → Int) (fs : List Factory) (f : Factory) : Prop :=
  0 < score f ∧ (∀ g ∈ fs, score g ≤ score f) ∧ ∃ pre post, fs = pre ++ f :: post ∧ ∀ g ∈ pre, score g < score f

/-- Nobody recognises it. -/
def Unknown (score : Factory → Int) (fs : List Factory) : Prop := ∀ g ∈ fs, score g ≤ 0

/-- The bytes that are looked at: as many as any factory wants, if the file has them. -/
def Head (fs : List Factory) (bytes : Option (List UInt8)) (magic : List UInt8) : Prop :=
  ∃ b, bytes = some b ∧ magic <+: b ∧ (∀ g ∈ fs, g.matchMagicSize ≤ magic.length) ∧ (magic.length = 0 ∨ ∃ g ∈ fs, g.matchMagicSize = magic.length)

/-! ## Proofs -/

theorem bestLoop_spec (score : Factory → Int) (fs : List Factory) : ∀ (done : List Factory) (s : Int × Option Factory),
    ((s = (0, none) ∧ Unknown score done) ∨ (∃ f, s = (score f, some f) ∧ IsBest score done f)) →
    ((bestLoop score fs s = (0, none) ∧ Unknown score (done ++ fs)) ∨
      (∃ f, bestLoop score fs s = (score f, some f) ∧ IsBest score (done ++ fs) f)) := by
  induction fs with
  | nil => intro done s h; simpa [bestLoop] using h
  | cons g fs ih =>
    intro done s h
    rw [bestLoop]
    have : done ++ g :: fs = (done ++ [g]) ++ fs := by simp
    rw [this]
    apply ih
    by_cases hs : score g > s.1
    · rw [if_pos hs]
      right
      refine ⟨g, rfl, ?_⟩
      rcases h with ⟨rfl, hu⟩ | ⟨f, rfl, hf⟩
      · dsimp only at hs
        refine ⟨hs, ?_, done, [], by simp, fun x hx => by have := hu x hx; omega⟩
        intro x hx
        rcases List.mem_append.1 hx with hx | hx
        · have := hu x hx; omega
        · rw [List.mem_singleton.1 hx]; exact Int.le_refl _
      · dsimp only at hs
        refine ⟨by have := hf.1; omega, ?_, done, [], by simp, fun x hx => by have := hf.2.1 x hx; omega⟩
        intro x hx
        rcases List.mem_append.1 hx with hx | hx
        · have := hf.2.1 x hx; omega
        · rw [List.mem_singleton.1 hx]; exact Int.le_refl _
    · rw [if_neg hs]
      rcases h with ⟨rfl, hu⟩ | ⟨f, rfl, hf⟩
      · left
        refine ⟨rfl, fun x hx => ?_⟩
        rcases List.mem_append.1 hx with hx | hx
        · exact hu x hx
        · rw [List.mem_singleton.1 hx]; dsimp only at hs; omega
      · right
        refine ⟨f, rfl, hf.1, fun x hx => ?_, ?_⟩
        · rcases List.mem_append.1 hx with hx | hx
          · exact hf.2.1 x hx
          · rw [List.mem_singleton.1 hx]; dsimp only at hs; omega
        · obtain ⟨pre, post, e, h3⟩ := hf.2.2
          exact ⟨pre, post ++ [g], by simp [e], h3⟩

theorem best_spec (score : Factory → Int) (fs : List Factory) :
    (best score fs = none ∧ Unknown score fs) ∨ (∃ f, best score fs = some f ∧ IsBest score fs f) := by
  rcases bestLoop_spec score fs [] (0, none) (Or.inl ⟨rfl, by simp [Unknown]⟩) with ⟨h1, h2⟩ | ⟨f, h1, h2⟩
  · left; exact ⟨by rw [best, h1], by simpa using h2⟩
  · right; exact ⟨f, by rw [best, h1], by simpa using h2⟩

theorem IsBest.not_unknown {score : Factory → Int} {fs : List Factory} {f : Factory} (h : IsBest score fs f) : ¬ Unknown score fs := by
  intro hu
  obtain ⟨pre, post, e, _⟩ := h.2.2
  have := hu f (by simp [e])
  have := h.1
  omega

theorem magicSize_spec (fs : List Factory) : ∀ n, n ≤ magicSize fs n ∧ (∀ g ∈ fs, g.matchMagicSize ≤ magicSize fs n) ∧
    (magicSize fs n = n ∨ ∃ g ∈ fs, g.matchMagicSize = magicSize fs n) := by
  induction fs with
  | nil => intro n; simp [magicSize]
  | cons f fs ih =>
    intro n
    rw [magicSize]
    by_cases h : f.matchMagicSize > n
    · rw [if_pos h]
      obtain ⟨h1, h2, h3⟩ := ih f.matchMagicSize
      refine ⟨by omega, ?_, ?_⟩
      · intro g hg
        rcases List.mem_cons.1 hg with rfl | hg
        · exact h1
        · exact h2 g hg
      · right
        rcases h3 with h3 | ⟨g, hg, h3⟩
        · exact ⟨f, by simp, h3.symm⟩
        · exact ⟨g, by simp [hg], h3⟩
    · rw [if_neg h]
      obtain ⟨h1, h2, h3⟩ := ih n
      refine ⟨h1, ?_, ?_⟩
      · intro g hg
        rcases List.mem_cons.1 hg with rfl | hg
        · omega
        · exact h2 g hg
      · rcases h3 with h3 | ⟨g, hg, h3⟩
        · exact Or.inl h3
        · exact Or.inr ⟨g, by simp [hg], h3⟩

theorem readBytes_spec (fs : List Factory) (bytes : Option (List UInt8)) :
    (readBytes bytes (magicSize fs 0) = none ∧ ∀ m, ¬ Head fs bytes m) ∨
    (∃ m, readBytes bytes (magicSize fs 0) = some m ∧ ∀ m', Head fs bytes m' ↔ m' = m) := by
  obtain ⟨_, h2, h3⟩ := magicSize_spec fs 0
  cases bytes with
  | none => left; exact ⟨rfl, fun m ⟨b, hb, _⟩ => by cases hb⟩
  | some b =>
    unfold readBytes
    dsimp only
    have hsize : ∀ m : List UInt8, (∀ g ∈ fs, g.matchMagicSize ≤ m.length) → (m.length = 0 ∨ ∃ g ∈ fs, g.matchMagicSize = m.length) →
        m.length = magicSize fs 0 := by
      intro m k1 k2
      rcases k2 with k2 | ⟨g, hg, k2⟩
      · rcases h3 with h3 | ⟨g, hg, h3⟩
        · omega
        · have := k1 g hg; omega
      · have := h2 g hg
        rcases h3 with h3 | ⟨g', hg', h3⟩
        · omega
        · have := k1 g' hg'; omega
    by_cases hl : magicSize fs 0 ≤ b.length
    · right
      rw [if_pos hl]
      refine ⟨_, rfl, fun m' => ⟨?_, ?_⟩⟩
      · rintro ⟨b', hb, k1, k2, k3⟩
        cases hb
        have := hsize m' k2 k3
        rw [List.prefix_iff_eq_take] at k1
        rw [k1, this]
      · rintro rfl
        have hlen : (b.take (magicSize fs 0)).length = magicSize fs 0 := by simp; omega
        exact ⟨b, rfl, List.take_prefix _ _, by rw [hlen]; exact h2, by
          rw [hlen]
          rcases h3 with h3 | h3
          · exact Or.inl h3
          · exact Or.inr h3⟩
    · left
      rw [if_neg hl]
      refine ⟨rfl, ?_⟩
      rintro m ⟨b', hb, k1, k2, k3⟩
      cases hb
      have := hsize m k2 k3
      have := k1.length_le
      omega

/-! ## Theorems -/

/-- **C61.** The factory chosen. An explicit type that some factory recognises decides; otherwise the first bytes of the file decide when
reading, if some factory recognises them; otherwise the name. Each time it is the first factory with the highest positive score; if
there is none, no factory is chosen. -/
theorem C61_precedence (fs : List Factory) (type name : String) (bytes : Option (List UInt8)) (write : Bool) :
    (∀ f, type ≠ "" → IsBest (fun g => g.matchFileTypeName type) fs f → findFactory fs type name bytes write = some f) ∧
    ((type = "" ∨ Unknown (fun g => g.matchFileTypeName type) fs) →
      (∀ m f, write = false → Head fs bytes m → IsBest (fun g => g.matchMagic m) fs f → findFactory fs type name bytes write = some f) ∧
      ((write = true ∨ ∀ m, Head fs bytes m → Unknown (fun g => g.matchMagic m) fs) →
        (∀ f, IsBest (fun g => g.matchFileName name) fs f → findFactory fs type name bytes write = some f) ∧
        (Unknown (fun g => g.matchFileName name) fs → findFactory fs type name bytes write = none))) := by
  have huniq : ∀ (score : Factory → Int) f, IsBest score fs f → best score fs = some f := by
    intro score f hf
    rcases best_spec score fs with ⟨_, hu⟩ | ⟨g, hg, hb⟩
    · exact absurd hu hf.not_unknown
    · rw [hg]
      obtain ⟨pre, post, e1, h1⟩ := hf.2.2
      obtain ⟨pre', post', e2, h2⟩ := hb.2.2
      have hmf : f ∈ fs := by simp [e1]
      have hmg : g ∈ fs := by simp [e2]
      have hle1 := hf.2.1 g hmg
      have hle2 := hb.2.1 f hmf
      have e : pre ++ f :: post = pre' ++ g :: post' := e1.symm.trans e2
      rcases Nat.lt_trichotomy pre.length pre'.length with hl | hl | hl
      · have : f ∈ pre' := by
          have h3 : (pre' ++ g :: post')[pre.length]? = some f := by rw [← e]; simp
          rw [List.getElem?_append_left hl] at h3
          exact List.mem_of_getElem? h3
        have := h2 f this
        omega
      · have := List.append_inj_right e hl
        injection this with h3 _
        rw [h3]
      · have : g ∈ pre := by
          have h3 : (pre ++ f :: post)[pre'.length]? = some g := by rw [e]; simp
          rw [List.getElem?_append_left hl] at h3
          exact List.mem_of_getElem? h3
        have := h1 g this
        omega
  have hunk : ∀ score : Factory → Int, Unknown score fs → best score fs = none := by
    intro score hu
    rcases best_spec score fs with ⟨h, _⟩ | ⟨g, _, hb⟩
    · exact h
    · exact absurd hu hb.not_unknown
  refine ⟨?_, fun htype => ⟨?_, fun hmagic => ?_⟩⟩
  · intro f ht hf
    unfold findFactory
    rw [if_pos ht, huniq _ f hf]
  · intro m f hw hm hf
    have h1 : (if type ≠ "" then best (fun f => f.matchFileTypeName type) fs else none) = none := by
      rcases htype with rfl | hu
      · simp
      · rw [hunk _ hu]; simp
    unfold findFactory
    rw [h1, if_pos (by simp [hw])]
    dsimp only
    unfold fromMagic
    rcases readBytes_spec fs bytes with ⟨_, hno⟩ | ⟨m', hr, hiff⟩
    · exact absurd hm (hno m)
    · rw [hr, ← (hiff m).1 hm]
      dsimp only
      rw [huniq _ f hf]
  · have h1 : (if type ≠ "" then best (fun f => f.matchFileTypeName type) fs else none) = none := by
      rcases htype with rfl | hu
      · simp
      · rw [hunk _ hu]; simp
    have h2 : (if ¬ write = true then fromMagic fs bytes else none) = none := by
      rcases hmagic with hw | hm
      · simp [hw]
      · have : fromMagic fs bytes = none := by
          unfold fromMagic
          rcases readBytes_spec fs bytes with ⟨hr, _⟩ | ⟨m', hr, hiff⟩
          · rw [hr]
          · rw [hr]; exact hunk _ (hm m' ((hiff m').2 rfl))
        rw [this]; simp
    unfold findFactory
    rw [h1]
    dsimp only
    rw [h2]
    exact ⟨fun f hf => huniq _ f hf, fun hu => hunk _ hu⟩

/-- **C61.** The cases of `C61_precedence` cover everything: a score function has a best factory or nobody recognises it. -/
theorem C61_cases_complete (score : Factory → Int) (fs : List Factory) : Unknown score fs ∨ ∃ f, IsBest score fs f := by
  rcases best_spec score fs with ⟨_, h⟩ | ⟨f, _, h⟩
  · exact Or.inl h
  · exact Or.inr ⟨f, h⟩

/-- Two factories: `grib` recognises 4 bytes, `netcdf` wants 7 bytes. -/
def exampleFactories : List Factory :=
  [⟨"grib", fun t => if t = "grb" then 1 else 0, 4, fun b => if b.take 4 = [71, 82, 73, 66] then 1 else 0, fun n => if n = "a.grb" then 1 else 0⟩,
   ⟨"netcdf", fun t => if t = "nc" then 1 else 0, 7, fun b => if b.take 3 = [67, 68, 70] then 1 else 0, fun n => if n = "a.nc" then 1 else 0⟩]

example : (findFactory exampleFactories "nc" "a.grb" (some [71, 82, 73, 66, 0, 0, 0]) false).map (·.id) = some "netcdf" ∧
    (findFactory exampleFactories "xx" "a.nc" (some [71, 82, 73, 66, 0, 0, 0]) false).map (·.id) = some "grib" ∧
    (findFactory exampleFactories "" "a.nc" (some [71, 82, 73, 66, 0, 0, 0]) true).map (·.id) = some "netcdf" ∧
    (findFactory exampleFactories "" "a" none false).map (·.id) = none := by decide

/-- A file shorter than the longest magic of any factory is never recognised by content, even if a factory would recognise the bytes it
has: the four bytes `GRIB` alone. -/
theorem C61_short_file_not_recognised :
    (findFactory exampleFactories "" "a" (some [71, 82, 73, 66]) false).map (·.id) = none ∧
    (findFactory exampleFactories "" "a" (some [71, 82, 73, 66, 0, 0, 0]) false).map (·.id) = some "grib" := by decide

end Fimex.Files
