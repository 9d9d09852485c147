import Verif.Basic
import Mathlib.Data.List.Basic
import Mathlib.Order.Basic
import Mathlib.Tactic.ByContra
import Mathlib.Tactic.Push

/-!
# Scanning directories

Model of `scanFiles_` and `scanFiles`, `src/FileUtils.cc:153-183`, with C50.

A directory is the sorted list of its entries, seen through links; a found file is reported as the names on the way from
the start directory; the regular expression is an arbitrary predicate.  An unreadable directory and cyclic links (infinite
trees) are not modelled; `depth` does not leave the range of `int` (at most 1001 levels are entered).
-/

namespace Fimex.Files

/-! ## Model -/

/-- Entries of a directory. -/
inductive Dir where
  | done
  | file (name : List Char) (rest : Dir)
  | other (name : List Char) (rest : Dir)
  | dir (name : List Char) (sub : Dir) (rest : Dir)
deriving DecidableEq

/-- src/FileUtils.cc:153-179 `scanFiles_`, the loop over the entries (`count` has been checked); `rel` is `currentRelDir`,
which is changed in the loop. -/
def scanEntries (m : List Char → Bool) (fileOnly : Bool) :
    Dir → List (List Char) → Int → List Char → Nat → Res (List (List (List Char)))
  | .done, _, _, _, _ => .ok []
  | .file n rest, here, depth, rel, count => do
    let r ← scanEntries m fileOnly rest here depth rel count
    .ok (if m ((if fileOnly then [] else rel) ++ n) then (here ++ [n]) :: r else r)
  | .other _ rest, here, depth, rel, count => scanEntries m fileOnly rest here depth rel count
  | .dir n sub rest, here, depth, rel, count =>
    if depth ≠ 0 then
      let rel' := if fileOnly then rel else rel ++ (n ++ ['/'])
      if count + 1 > 1000 then .throws
      else do
        let a ← scanEntries m fileOnly sub (here ++ [n]) (depth - 1) rel' (count + 1)
        let b ← scanEntries m fileOnly rest here depth rel' count
        .ok (a ++ b)
    else scanEntries m fileOnly rest here depth rel count

/-- src/FileUtils.cc:180-183 `scanFiles`. -/
def scanFiles (m : List Char → Bool) (fileOnly : Bool) (d : Dir) (depth : Int) : Res (List (List (List Char))) :=
  scanEntries m fileOnly d [] depth [] 0

/-! ## Specification -/

/-- All regular files of the tree, each as the names on the way to it. -/
def allFiles : Dir → List (List (List Char))
  | .done => []
  | .file n rest => [n] :: allFiles rest
  | .other _ rest => allFiles rest
  | .dir n sub rest => (allFiles sub).map (n :: ·) ++ allFiles rest

/-- Number of levels of directories below. -/
def height : Dir → Nat
  | .done => 0
  | .file _ rest => height rest
  | .other _ rest => height rest
  | .dir _ sub rest => max (height sub + 1) (height rest)

/-- Path relative to the start directory. -/
def relPath : List (List Char) → List Char
  | [] => []
  | [n] => n
  | n :: p => n ++ ['/'] ++ relPath p

/-- Name of the file. -/
def fileName (p : List (List Char)) : List Char := p.getLast?.getD []

/-- The file is at most `depth` directories down (any depth if negative). -/
def Within (depth : Int) (p : List (List Char)) : Prop := depth < 0 ∨ (p.length : Int) ≤ depth + 1

instance (depth : Int) (p : List (List Char)) : Decidable (Within depth p) := inferInstanceAs (Decidable (_ ∨ _))

/-- No files or directories. -/
def NoMore : Dir → Prop
  | .done => True
  | .other _ rest => NoMore rest
  | _ => False

/-- In each directory, nothing is listed after a directory. -/
def DirsLast : Dir → Prop
  | .done => True
  | .file _ rest => DirsLast rest
  | .other _ rest => DirsLast rest
  | .dir _ sub rest => DirsLast sub ∧ NoMore rest

/-! ## Theorems -/

theorem allFiles_ne_nil (d : Dir) : ∀ p ∈ allFiles d, p ≠ [] := by
  induction d with
  | done => intro p hp; cases hp
  | file n rest ih =>
    intro p hp
    rcases List.mem_cons.1 hp with rfl | hp
    · simp
    · exact ih p hp
  | other n rest ih => exact ih
  | dir n sub rest ih1 ih2 =>
    intro p hp
    rcases List.mem_append.1 hp with hp | hp
    · obtain ⟨q, _, rfl⟩ := List.mem_map.1 hp; simp
    · exact ih2 p hp

/-- The text that is compared. -/
def key (fileOnly : Bool) (rel : List Char) (p : List (List Char)) : List Char :=
  if fileOnly then fileName p else rel ++ relPath p

theorem relPath_cons (n : List Char) (p : List (List Char)) (h : p ≠ []) : relPath (n :: p) = n ++ ['/'] ++ relPath p := by
  cases p with
  | nil => exact absurd rfl h
  | cons q p => rfl

theorem fileName_cons (n : List Char) (p : List (List Char)) (h : p ≠ []) : fileName (n :: p) = fileName p := by
  cases p with
  | nil => exact absurd rfl h
  | cons q p => simp [fileName]

theorem key_cons (fileOnly : Bool) (rel n : List Char) (p : List (List Char)) (h : p ≠ []) :
    key fileOnly rel (n :: p) = key fileOnly (if fileOnly then rel else rel ++ (n ++ ['/'])) p := by
  unfold key
  cases fileOnly with
  | true => simp [fileName_cons n p h]
  | false => simp [relPath_cons n p h]

theorem scan_noMore (m : List Char → Bool) (fo : Bool) (d : Dir) (h : NoMore d) (here : List (List Char)) (depth : Int)
    (rel : List Char) (c : Nat) : scanEntries m fo d here depth rel c = .ok [] ∧ allFiles d = [] := by
  induction d with
  | done => exact ⟨rfl, rfl⟩
  | file n rest ih => exact h.elim
  | other n rest ih => exact ih h
  | dir n sub rest ih1 ih2 => exact h.elim

theorem scan_spec (m : List Char → Bool) (fo : Bool) (d : Dir) : ∀ (here : List (List Char)) (depth : Int) (rel : List Char)
    (c : Nat), (height d + c ≤ 1000 ∨ (0 ≤ depth ∧ depth + c ≤ 1000)) → (fo = true ∨ depth = 0 ∨ DirsLast d) →
    scanEntries m fo d here depth rel c =
      .ok (((allFiles d).filter fun p => decide (Within depth p) && m (key fo rel p)).map (here ++ ·)) := by
  induction d with
  | done => intros; rfl
  | file n rest ih =>
    intro here depth rel c hc hd
    have e : scanEntries m fo (.file n rest) here depth rel c = (do
      let r ← scanEntries m fo rest here depth rel c
      .ok (if m ((if fo then [] else rel) ++ n) then (here ++ [n]) :: r else r)) := rfl
    rw [e, ih here depth rel c hc hd]
    have hk : key fo rel [n] = (if fo then [] else rel) ++ n := by cases fo <;> simp [key, fileName, relPath]
    have hw : Within depth [n] := by unfold Within; simp; omega
    show Res.ok _ = _
    congr 1
    show _ = List.map _ (List.filter _ ([n] :: allFiles rest))
    by_cases hm : m ((if fo then [] else rel) ++ n) = true
    · rw [if_pos hm, List.filter_cons_of_pos (by rw [hk, hm]; simp [hw])]
      rfl
    · rw [if_neg hm, List.filter_cons_of_neg (by rw [hk]; simp [hm])]
  | other n rest ih =>
    intro here depth rel c hc hd
    exact ih here depth rel c hc hd
  | dir n sub rest ih1 ih2 =>
    intro here depth rel c hc hd
    have e : scanEntries m fo (.dir n sub rest) here depth rel c =
      if depth ≠ 0 then
        if c + 1 > 1000 then .throws
        else do
          let a ← scanEntries m fo sub (here ++ [n]) (depth - 1) (if fo then rel else rel ++ (n ++ ['/'])) (c + 1)
          let b ← scanEntries m fo rest here depth (if fo then rel else rel ++ (n ++ ['/'])) c
          .ok (a ++ b)
      else scanEntries m fo rest here depth rel c := rfl
    rw [e]
    have hh : height (.dir n sub rest) = max (height sub + 1) (height rest) := rfl
    have ha : allFiles (.dir n sub rest) = (allFiles sub).map (n :: ·) ++ allFiles rest := rfl
    rw [hh] at hc
    rw [ha, List.filter_append, List.map_append]
    have hcr : height rest + c ≤ 1000 ∨ (0 ≤ depth ∧ depth + c ≤ 1000) := by omega
    by_cases h0 : depth = 0
    · rw [if_neg (not_not.2 h0), ih2 here depth rel c hcr (Or.inr (Or.inl h0))]
      have : ((allFiles sub).map (n :: ·)).filter (fun p => decide (Within depth p) && m (key fo rel p)) = [] := by
        rw [List.filter_eq_nil_iff]
        intro p hp
        obtain ⟨q, hq, rfl⟩ := List.mem_map.1 hp
        have := allFiles_ne_nil sub q hq
        have hl : q.length ≠ 0 := by simpa using this
        have : ¬ Within depth (n :: q) := by
          unfold Within
          simp only [List.length_cons]
          omega
        simp [this]
      rw [this]; rfl
    · rw [if_pos h0, if_neg (by omega)]
      have hsub := ih1 (here ++ [n]) (depth - 1) (if fo then rel else rel ++ (n ++ ['/'])) (c + 1)
        (by push_cast; omega)
        (by
          rcases hd with hd | hd | hd
          · exact Or.inl hd
          · exact absurd hd h0
          · exact Or.inr (Or.inr hd.1))
      rw [hsub, Res.ok_bind]
      have hfst : (((allFiles sub).map (n :: ·)).filter fun p => decide (Within depth p) && m (key fo rel p)).map (here ++ ·) =
          ((allFiles sub).filter fun p => decide (Within (depth - 1) p) &&
            m (key fo (if fo then rel else rel ++ (n ++ ['/'])) p)).map (here ++ [n] ++ ·) := by
        rw [List.filter_map, List.map_map]
        have : ((allFiles sub).filter ((fun p => decide (Within depth p) && m (key fo rel p)) ∘ (n :: ·))) =
            (allFiles sub).filter fun p => decide (Within (depth - 1) p) &&
              m (key fo (if fo then rel else rel ++ (n ++ ['/'])) p) := by
          apply List.filter_congr
          intro p hp
          have hne := allFiles_ne_nil sub p hp
          simp only [Function.comp]
          rw [key_cons fo rel n p hne]
          have hl : p.length ≠ 0 := by simpa using hne
          have : Within depth (n :: p) ↔ Within (depth - 1) p := by
            unfold Within
            simp only [List.length_cons]
            push_cast
            omega
          rw [decide_eq_decide.2 this]
        rw [this]
        apply List.map_congr_left
        intro p _
        simp
      rw [hfst]
      rcases hd with hd | hd | hd
      · rw [ih2 here depth _ c hcr (Or.inl hd), Res.ok_bind]
        have : ∀ p, key fo (if fo = true then rel else rel ++ (n ++ ['/'])) p = key fo rel p := by
          intro p; rw [hd]; simp [key]
        simp only [this]
      · exact absurd hd h0
      · obtain ⟨s1, s2⟩ := scan_noMore m fo rest hd.2 here depth (if fo then rel else rel ++ (n ++ ['/'])) c
        rw [s1, s2]
        rfl

/-- **C50.** A scan that compares file names only reports exactly the regular files at most `depth` directories down whose
name matches, each once, in order, provided at most 1000 levels are entered. -/
theorem C50_scan_names (m : List Char → Bool) (d : Dir) (depth : Int) (h : height d ≤ 1000 ∨ (0 ≤ depth ∧ depth ≤ 1000)) :
    scanFiles m true d depth = .ok ((allFiles d).filter fun p => decide (Within depth p) && m (fileName p)) := by
  unfold scanFiles
  rw [scan_spec m true d [] depth [] 0 (by simpa using h) (Or.inl rfl)]
  simp [key]

example : scanFiles (fun n => n.length = 1) true
    (.dir "d".toList (.file "a".toList (.file "bb".toList .done)) (.dir "e".toList (.file "c".toList .done) .done)) (-1) =
    .ok [["d".toList, "a".toList], ["e".toList, "c".toList]] := by decide

/-- **C50.** A scan that compares relative paths reports exactly the regular files at most `depth` directories down whose
relative path matches, if it does not enter directories, or if nothing is listed after any directory.  Missing for the
full statement: other trees, for which it is false (see below). -/
theorem C50_scan_paths_partial (m : List Char → Bool) (d : Dir) (depth : Int)
    (h : height d ≤ 1000 ∨ (0 ≤ depth ∧ depth ≤ 1000)) (hd : depth = 0 ∨ DirsLast d) :
    scanFiles m false d depth = .ok ((allFiles d).filter fun p => decide (Within depth p) && m (relPath p)) := by
  unfold scanFiles
  rw [scan_spec m false d [] depth [] 0 (by simpa using h) (Or.inr hd)]
  simp [key]

example : DirsLast (.file "x".toList (.dir "y".toList (.file "z".toList .done) .done)) ∧
    scanFiles (· = "y/z".toList) false (.file "x".toList (.dir "y".toList (.file "z".toList .done) .done)) (-1) =
    .ok [["y".toList, "z".toList]] := ⟨⟨trivial, trivial⟩, by decide⟩

/-- A file listed after a directory, and files in a later directory, are compared with the names of the earlier directories
in front: `b/c` is not found by its path but by `a/b/c`. -/
theorem C50_siblings_get_wrong_paths :
    let d : Dir := .dir "a".toList .done (.dir "b".toList (.file "c".toList .done) (.file "f".toList .done))
    scanFiles (· = "b/c".toList) false d (-1) = .ok [] ∧
    scanFiles (· = "a/b/c".toList) false d (-1) = .ok [["b".toList, "c".toList]] ∧
    scanFiles (· = "f".toList) false d (-1) = .ok [] := by decide

theorem scan_throws (m : List Char → Bool) (fo : Bool) (d : Dir) : ∀ (here : List (List Char)) (depth : Int) (rel : List Char)
    (c : Nat), c ≤ 1000 → 1000 < height d + c → (depth < 0 ∨ 1000 < depth + c) →
    scanEntries m fo d here depth rel c = .throws := by
  induction d with
  | done => intro here depth rel c h1 h2 _; simp [height] at h2; omega
  | file n rest ih =>
    intro here depth rel c h1 h2 h3
    have e : scanEntries m fo (.file n rest) here depth rel c = (do
      let r ← scanEntries m fo rest here depth rel c
      .ok (if m ((if fo then [] else rel) ++ n) then (here ++ [n]) :: r else r)) := rfl
    rw [e, ih here depth rel c h1 h2 h3]; rfl
  | other n rest ih => intro here depth rel c h1 h2 h3; exact ih here depth rel c h1 h2 h3
  | dir n sub rest ih1 ih2 =>
    intro here depth rel c h1 h2 h3
    have e : scanEntries m fo (.dir n sub rest) here depth rel c =
      if depth ≠ 0 then
        if c + 1 > 1000 then .throws
        else do
          let a ← scanEntries m fo sub (here ++ [n]) (depth - 1) (if fo then rel else rel ++ (n ++ ['/'])) (c + 1)
          let b ← scanEntries m fo rest here depth (if fo then rel else rel ++ (n ++ ['/'])) c
          .ok (a ++ b)
      else scanEntries m fo rest here depth rel c := rfl
    have noub : ∀ (d : Dir) (here : List (List Char)) (depth : Int) (rel : List Char) (c : Nat),
        scanEntries m fo d here depth rel c ≠ .ub := by
      intro d
      induction d with
      | done => intros; simp [scanEntries]
      | file n rest ih =>
        intro here depth rel c
        have := ih here depth rel c
        unfold scanEntries
        cases h : scanEntries m fo rest here depth rel c <;> simp_all
      | other n rest ih => intro here depth rel c; exact ih here depth rel c
      | dir n sub rest i1 i2 =>
        intro here depth rel c
        unfold scanEntries
        have j1 := i1 (here ++ [n]) (depth - 1) (if fo then rel else rel ++ (n ++ ['/'])) (c + 1)
        have j2 := i2 here depth (if fo then rel else rel ++ (n ++ ['/'])) c
        have j3 := i2 here depth rel c
        by_cases h0 : depth ≠ 0
        · rw [if_pos h0]
          dsimp only
          by_cases h1 : c + 1 > 1000
          · rw [if_pos h1]; simp
          · rw [if_neg h1]
            cases a1 : scanEntries m fo sub (here ++ [n]) (depth - 1) (if fo then rel else rel ++ (n ++ ['/'])) (c + 1) with
            | ub => exact absurd a1 j1
            | throws => simp
            | ok a =>
              cases a2 : scanEntries m fo rest here depth (if fo then rel else rel ++ (n ++ ['/'])) c with
              | ub => exact absurd a2 j2
              | throws => simp
              | ok b => simp
        · rw [if_neg h0]; exact j3
    have h0 : depth ≠ 0 := by omega
    rw [e, if_pos h0]
    by_cases hc : c + 1 > 1000
    · rw [if_pos hc]
    · rw [if_neg hc]
      have hh : height (.dir n sub rest) = max (height sub + 1) (height rest) := rfl
      rw [hh] at h2
      by_cases hs : 1000 < height sub + (c + 1)
      · rw [ih1 (here ++ [n]) (depth - 1) _ (c + 1) (by omega) hs (by push_cast; omega)]
        rfl
      · have hr : 1000 < height rest + c := by omega
        rw [ih2 here depth _ c h1 hr h3]
        cases a1 : scanEntries m fo sub (here ++ [n]) (depth - 1) (if fo then rel else rel ++ (n ++ ['/'])) (c + 1) with
        | ub => exact absurd a1 (noub _ _ _ _ _)
        | throws => rfl
        | ok a => rfl

/-- **C50.** A scan of a tree with more than 1000 levels raises if it may enter them. -/
theorem C50_too_deep (m : List Char → Bool) (fileOnly : Bool) (d : Dir) (depth : Int) (h : 1000 < height d)
    (hd : depth < 0 ∨ 1000 < depth) : scanFiles m fileOnly d depth = .throws :=
  scan_throws m fileOnly d [] depth [] 0 (by omega) (by simpa using h) (by simpa using hd)

/-- Trees with any number of levels exist. -/
example : ∀ n : Nat, ∃ d : Dir, height d = n := by
  intro n
  induction n with
  | zero => exact ⟨.done, rfl⟩
  | succ n ih =>
    obtain ⟨d, hd⟩ := ih
    exact ⟨.dir [] d .done, by simp [height, hd]⟩

end Fimex.Files
