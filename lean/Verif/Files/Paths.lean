import Verif.Text.Props

/-!
# Paths

Model of `extractFilename`, `removeFilename`, `replaceFilename`, `joinFilename`, `src/FileUtils.cc:241-276`, with C51.
-/

namespace Fimex.Files

open Fimex.Text

/-! ## Model -/

/-- src/FileUtils.cc:241-249 `extractFilename`. -/
def extractFilename (path : List Char) : Res (List Char) :=
  match findLast (· = '/') path with
  | some slash => substr path (some (slash + 1)) none
  | none => .ok path

/-- src/FileUtils.cc:251-259 `removeFilename`. -/
def removeFilename (path : List Char) : Res (List Char) :=
  match findLast (· = '/') path with
  | some slash => substr path (some 0) (some (slash + 1))
  | none => .ok []

/-- src/FileUtils.cc:261-264 `replaceFilename`. -/
def replaceFilename (path filename : List Char) : Res (List Char) := do
  let d ← removeFilename path
  .ok (d ++ filename)

/-- src/FileUtils.cc:266-275 `joinFilename`. -/
def joinFilename (path filename : List Char) : List Char :=
  (if path ≠ [] ∧ path.getLast? ≠ some '/' then path ++ ['/'] else path) ++ filename

/-! ## Specification -/

/-- A text split at its last slash, which stays with the directory. -/
structure Split (path dir file : List Char) : Prop where
  whole : path = dir ++ file
  file : '/' ∉ file
  dir : dir = [] ∨ dir.getLast? = some '/'

/-! ## Theorems -/

theorem Split.unique {path d f d' f' : List Char} (h : Split path d f) (h' : Split path d' f') : d = d' ∧ f = f' := by
  have e : d ++ f = d' ++ f' := h.whole.symm.trans h'.whole
  have key : ∀ (d f d' f' : List Char), d ++ f = d' ++ f' → '/' ∉ f' → (d = [] ∨ d.getLast? = some '/') →
      d.length ≤ d'.length := by
    intro d f d' f' e hf hd
    rcases hd with hd | hd
    · simp [hd]
    · by_contra hlt
      rw [Nat.not_le] at hlt
      obtain ⟨a, ha⟩ : ∃ a, d = a ++ ['/'] := by
        obtain ⟨a, ha⟩ := List.getLast?_eq_some_iff.1 hd
        exact ⟨a, ha⟩
      apply hf
      have h1 : (d ++ f)[a.length]? = some '/' := by rw [ha]; simp
      rw [e, List.getElem?_append_right (by rw [ha] at hlt; simp at hlt; omega)] at h1
      exact List.mem_of_getElem? h1
  have l1 := key d f d' f' e h'.file h.dir
  have l2 := key d' f' d f e.symm h.file h'.dir
  exact List.append_inj e (by omega)

theorem findLast_none {p : Char → Bool} {s : List Char} (h : findLast p s = none) : ∀ c ∈ s, p c = false := by
  unfold findLast at h
  simp only [Option.map_eq_none_iff, List.findIdx?_eq_none_iff] at h
  intro c hc
  exact h c (by simpa using hc)

/-- **C51.** For every text, directory part and file name are its split at the last slash: joined they are the text, the
file name has no slash, the directory part is empty or ends in a slash.  No call raises or has undefined behaviour. -/
theorem C51_split_is_lossless (path : List Char) : ∃ dir file,
    removeFilename path = .ok dir ∧ extractFilename path = .ok file ∧ Split path dir file := by
  unfold removeFilename extractFilename
  cases h : findLast (· = '/') path with
  | none =>
    refine ⟨[], path, rfl, rfl, ⟨rfl, ?_, Or.inl rfl⟩⟩
    intro hm
    have := findLast_none h '/' hm
    simp at this
  | some k =>
    obtain ⟨u, c, v, h1, h2, h3, h4⟩ := findLast_some h
    have hc : c = '/' := by simpa using h3
    subst hc
    have hlen : path.length = k + 1 + v.length := by rw [h1]; simp; omega
    have hd : path.drop (k + 1) = v := by rw [h1, ← h2]; simp
    have ht : path.take (k + 1) = u ++ ['/'] := by
      rw [h1, ← h2, List.take_append, List.take_of_length_le (by omega)]
      simp
    refine ⟨u ++ ['/'], v, ?_, ?_, ⟨by rw [h1]; simp, ?_, Or.inr (by simp)⟩⟩
    · unfold substr
      dsimp only
      rw [if_neg (by omega)]
      simp only [List.drop_zero, Nat.sub_zero]
      rw [ht]
    · unfold substr
      dsimp only
      rw [if_neg (by omega), hd]
    · intro hm
      have := h4 '/' hm
      simp at this

example : removeFilename "/a/b.nc".toList = .ok "/a/".toList ∧ extractFilename "/a/b.nc".toList = .ok "b.nc".toList ∧
    Split "/a/b.nc".toList "/a/".toList "b.nc".toList := ⟨by decide, by decide, by decide, by decide, by decide⟩

/-- **C51.** Replacing the file name keeps the directory part; with a name without slash, the new name is read back. -/
theorem C51_replace (path filename : List Char) (hf : '/' ∉ filename) : ∃ dir r,
    removeFilename path = .ok dir ∧ replaceFilename path filename = .ok r ∧ r = dir ++ filename ∧
    removeFilename r = .ok dir ∧ extractFilename r = .ok filename := by
  obtain ⟨dir, file, h1, h2, h3⟩ := C51_split_is_lossless path
  refine ⟨dir, dir ++ filename, h1, ?_, rfl, ?_⟩
  · unfold replaceFilename
    rw [h1]; rfl
  · obtain ⟨dir', file', g1, g2, g3⟩ := C51_split_is_lossless (dir ++ filename)
    obtain ⟨e1, e2⟩ := g3.unique (⟨rfl, hf, h3.dir⟩ : Split (dir ++ filename) dir filename)
    rw [g1, g2, e1, e2]
    exact ⟨rfl, rfl⟩

example : replaceFilename "/a/b.nc".toList "c".toList = .ok "/a/c".toList := by decide

/-- **C51.** Joining a directory and a name without slash: the name is read back, and so is the directory, with exactly one
slash behind it unless it is empty. -/
theorem C51_join (dir filename : List Char) (hf : '/' ∉ filename) :
    extractFilename (joinFilename dir filename) = .ok filename ∧
    removeFilename (joinFilename dir filename) =
      .ok (if dir = [] ∨ dir.getLast? = some '/' then dir else dir ++ ['/']) := by
  have hs : Split (joinFilename dir filename) (if dir = [] ∨ dir.getLast? = some '/' then dir else dir ++ ['/']) filename := by
    unfold joinFilename
    by_cases h : dir = [] ∨ dir.getLast? = some '/'
    · rw [if_pos h, if_neg (by rintro ⟨h1, h2⟩; rcases h with h | h; exacts [h1 h, h2 h])]
      exact ⟨rfl, hf, h⟩
    · rw [if_neg h, if_pos ⟨fun h1 => h (Or.inl h1), fun h1 => h (Or.inr h1)⟩]
      exact ⟨rfl, hf, Or.inr (by simp)⟩
  obtain ⟨dir', file', g1, g2, g3⟩ := C51_split_is_lossless (joinFilename dir filename)
  obtain ⟨e1, e2⟩ := g3.unique hs
  rw [g1, g2, e1, e2]
  exact ⟨rfl, rfl⟩

example : joinFilename "/a".toList "b".toList = "/a/b".toList ∧ joinFilename "/a/".toList "b".toList = "/a/b".toList ∧
    joinFilename [] "b".toList = "b".toList := by decide

end Fimex.Files
