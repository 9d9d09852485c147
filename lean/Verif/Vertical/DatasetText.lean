import Verif.Vertical.DatasetModel
import Verif.Text.Props

/-!
# Datasets with new levels: the attribute `coordinates`
-/

namespace Fimex.NewLevels

open Text

/-- No character of a word. -/
def gap (c : Char) : Bool := !isWord c

theorem dropWord_gap {n : List Char} (hw : ∀ c ∈ n, isWord c = true) {c : Char} (hc : isWord c = false) (prev : Option Char) (t : List Char) :
    dropWord n prev (c :: t) = c :: dropWord n (some c) t := by
  conv_lhs => unfold dropWord
  rw [if_neg]
  rintro ⟨hn, hp, -⟩
  cases n with
  | nil => exact hn rfl
  | cons a n =>
    have : a = c := (List.cons_prefix_cons.1 hp).1
    have := hw a List.mem_cons_self
    simp_all

theorem dropWord_inside {n : List Char} (w : List Char) (hw : ∀ c ∈ w, isWord c = true) :
    ∀ (a : Char) (rest : List Char), isWord a = true → ∃ b, isWord b = true ∧ dropWord n (some a) (w ++ rest) = w ++ dropWord n (some b) rest := by
  induction w with
  | nil => intro a rest ha; exact ⟨a, ha, rfl⟩
  | cons c w ih =>
    intro a rest ha
    have hc := hw c List.mem_cons_self
    obtain ⟨b, hb, e⟩ := ih (fun x hx => hw x (List.mem_cons_of_mem _ hx)) c rest hc
    refine ⟨b, hb, ?_⟩
    rw [List.cons_append, List.cons_append, ← e]
    conv_lhs => unfold dropWord
    rw [if_neg]
    rintro ⟨-, -, hbd, -⟩
    simp [boundary, ha, hc] at hbd

theorem dropWord_word {n : List Char} (hn : n ≠ []) (hw : ∀ c ∈ n, isWord c = true) {w : List Char} (hw0 : w ≠ []) (hww : ∀ c ∈ w, isWord c = true)
    {prev : Option Char} (hp : (prev.map isWord).getD false = false) {rest : List Char} (hr : (rest.head?.map isWord).getD false = false) :
    ∃ b, dropWord n prev (w ++ rest) = (if w = n then [] else w) ++ dropWord n b rest := by
  by_cases he : w = n
  · subst he
    refine ⟨w.getLast?, ?_⟩
    rw [if_pos rfl]
    cases w with
    | nil => exact absurd rfl hn
    | cons c w =>
      have hc := hw c List.mem_cons_self
      have hl : isWord ((c :: w).getLast (by simp)) = true := hw _ (List.getLast_mem _)
      conv_lhs => unfold dropWord
      rw [List.cons_append]
      simp only
      rw [if_pos]
      · rw [← List.cons_append, List.drop_left]
        rfl
      · refine ⟨hn, ?_, ?_, ?_⟩
        · rw [← List.cons_append]; exact List.prefix_append _ _
        · simp [boundary, hp, hc]
        · rw [← List.cons_append, List.drop_left, List.getLast?_eq_some_getLast (by simp)]
          unfold boundary
          rw [hr]
          simp [hl]
  · rw [if_neg he]
    cases w with
    | nil => exact absurd rfl hw0
    | cons c w =>
      have hc := hww c List.mem_cons_self
      obtain ⟨b, hb, e⟩ := dropWord_inside (n := n) w (fun x hx => hww x (List.mem_cons_of_mem _ hx)) c rest hc
      refine ⟨some b, ?_⟩
      rw [List.cons_append, List.cons_append, ← e]
      conv_lhs => unfold dropWord
      rw [if_neg]
      rintro ⟨-, hpre, -, hbd⟩
      -- a shorter name ends inside the word, a longer one does not fit
      obtain ⟨u, hu⟩ := hpre
      have hl : isWord (n.getLast hn) = true := hw _ (List.getLast_mem _)
      rw [← hu, List.drop_left, List.getLast?_eq_some_getLast hn] at hbd
      unfold boundary at hbd
      simp only [Option.map_some, Option.getD_some, hl] at hbd
      have hu' : (u.head?.map isWord).getD false = false := by simpa using hbd
      rw [← List.cons_append] at hu
      rcases List.append_eq_append_iff.1 hu with ⟨x, h1, h2⟩ | ⟨x, h1, h2⟩
      · cases x with
        | nil => exact he (by simpa using h1)
        | cons y x =>
          have : isWord y = true := hww y (by rw [h1]; simp)
          rw [h2] at hu'
          simp [this] at hu'
      · cases x with
        | nil => exact he (by simpa using h1.symm)
        | cons y x =>
          have : isWord y = true := hw y (by rw [h1]; simp)
          rw [h2] at hr
          simp [this] at hr

theorem split_word (s : List Char) : ∃ w rest, s = w ++ rest ∧ (∀ c ∈ w, isWord c = true) ∧ (rest.head?.map isWord).getD false = false := by
  induction s with
  | nil => exact ⟨[], [], rfl, by simp, rfl⟩
  | cons c s ih =>
    by_cases hc : isWord c = true
    · obtain ⟨w, rest, e, h1, h2⟩ := ih
      refine ⟨c :: w, rest, by rw [e]; rfl, fun x hx => ?_, h2⟩
      rcases List.mem_cons.1 hx with rfl | hx
      · exact hc
      · exact h1 x hx
    · exact ⟨[], c :: s, rfl, by simp, by simpa using hc⟩

/-- Words that are the name are dropped, and nothing else. -/
theorem dropWord_words {n : List Char} (hn : n ≠ []) (hw : ∀ c ∈ n, isWord c = true) :
    ∀ (k : ℕ) (s : List Char), s.length = k → ∀ prev : Option Char, (prev.map isWord).getD false = false →
      words gap (dropWord n prev s) = (words gap s).filter (fun w => w ≠ n) ∧ (dropWord n prev s).filter gap = s.filter gap := by
  intro k
  induction k using Nat.strong_induction_on with
  | _ k ih =>
    intro s hk prev hp
    obtain ⟨w, rest, e, hww, hr⟩ := split_word s
    have hg : ∀ c ∈ w, gap c = false := fun c hc => by simp [gap, hww c hc]
    have hwg : w.filter gap = [] := List.filter_eq_nil_iff.2 fun c hc => by simp [hg c hc]
    -- what follows the word
    have hrest : ∀ b, (∃ v c, rest = c :: v ∧ gap c = true ∧ dropWord n b rest = c :: dropWord n (some c) v ∧
          words gap (dropWord n (some c) v) = (words gap v).filter (fun w => w ≠ n) ∧ (dropWord n (some c) v).filter gap = v.filter gap) ∨
        (rest = [] ∧ dropWord n b rest = []) := by
      intro b
      cases hrc : rest with
      | nil => exact Or.inr ⟨rfl, by simp [dropWord]⟩
      | cons c v =>
        rw [hrc] at hr
        have hc : isWord c = false := by simpa using hr
        left
        refine ⟨v, c, rfl, by simp [gap, hc], dropWord_gap hw hc b v, ?_⟩
        refine ih v.length ?_ v rfl (some c) (by simp [hc])
        rw [← hk, e, hrc]
        simp only [List.length_append, List.length_cons]
        omega
    cases hwe : w with
    | nil =>
      rw [hwe, List.nil_append] at e
      subst e
      rcases hrest prev with ⟨v, c, rfl, hc, e1, e2, e3⟩ | ⟨rfl, e1⟩
      · rw [e1]
        have h1 := words_delims gap [c] (dropWord n (some c) v) (by simpa using hc)
        have h2 := words_delims gap [c] v (by simpa using hc)
        rw [List.singleton_append] at h1 h2
        rw [h1, h2, e2, List.filter_cons_of_pos hc, List.filter_cons_of_pos hc, e3]
        exact ⟨rfl, rfl⟩
      · rw [e1]
        exact ⟨rfl, rfl⟩
    | cons x w' =>
      have hw0 : w ≠ [] := by rw [hwe]; simp
      obtain ⟨b, eb⟩ := dropWord_word hn hw hw0 hww hp hr
      rw [e, eb]
      rcases hrest b with ⟨v, c, rfl, hc, e1, e2, e3⟩ | ⟨rfl, e1⟩
      · rw [e1]
        have h1 := words_delims gap [c] (dropWord n (some c) v) (by simpa using hc)
        have h2 := words_delims gap [c] v (by simpa using hc)
        rw [List.singleton_append] at h1 h2
        rw [words_word gap w c v hw0 hg hc, h2, List.filter_append, List.filter_append, hwg, List.filter_cons_of_pos hc, List.filter_cons_of_pos hc, e3]
        by_cases he : w = n
        · rw [if_pos he, List.nil_append, h1, e2, List.filter_cons_of_neg (by simpa using he)]
          exact ⟨rfl, rfl⟩
        · rw [if_neg he, words_word gap w c _ hw0 hg hc, h1, e2, List.filter_cons_of_pos (by simpa using he), hwg]
          exact ⟨rfl, rfl⟩
      · rw [e1, List.append_nil, List.append_nil, words_last gap w hw0 hg, hwg]
        by_cases he : w = n
        · rw [if_pos he, List.filter_cons_of_neg (by simpa using he)]
          exact ⟨rfl, rfl⟩
        · rw [if_neg he, words_last gap w hw0 hg, List.filter_cons_of_pos (by simpa using he), hwg]
          exact ⟨rfl, rfl⟩

theorem pieces_congr {p q : Char → Bool} : ∀ {s : List Char}, (∀ c ∈ s, p c = q c) → pieces p s = pieces q s
  | [], _ => rfl
  | c :: s, h => by
    unfold pieces
    rw [h c List.mem_cons_self, pieces_congr fun x hx => h x (List.mem_cons_of_mem _ hx)]

theorem mem_dropWord {n : List Char} : ∀ (k : ℕ) (s : List Char), s.length = k → ∀ prev c, c ∈ dropWord n prev s → c ∈ s := by
  intro k
  induction k using Nat.strong_induction_on with
  | _ k ih =>
    intro s hk prev c hc
    cases s with
    | nil => simp [dropWord] at hc
    | cons x t =>
      unfold dropWord at hc
      by_cases hx : n ≠ [] ∧ n <+: x :: t ∧ boundary prev (some x) = true ∧ boundary n.getLast? ((x :: t).drop n.length).head? = true
      · rw [if_pos hx] at hc
        have hl : 0 < n.length := List.length_pos_iff.2 hx.1
        refine List.mem_of_mem_drop (ih _ ?_ _ rfl _ c hc)
        rw [← hk]
        simp only [List.length_drop, List.length_cons]
        omega
      · rw [if_neg hx] at hc
        rcases List.mem_cons.1 hc with rfl | hc
        · exact List.mem_cons_self
        · exact List.mem_cons_of_mem _ (ih t.length (by rw [← hk]; simp) t rfl _ c hc)

end Fimex.NewLevels
