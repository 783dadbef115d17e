import Verif.Spec.Keywords
import Verif.Proofs.EnvVars
import Verif.Props.Access
/-
Lemmas on the keyword tools.
-/
namespace CPE.KW
open CPE CPE.Spec CPE.SetEnv CPE.KW.Spec

/-! ### The words of a text -/

theorem mem_takeWhile {p : Char → Bool} {s : Str} {c : Char} (h : c ∈ s.takeWhile p) : p c = true := by
  induction s with
  | nil => cases h
  | cons a s ih =>
    by_cases ha : p a = true
    · rw [List.takeWhile_cons_of_pos ha] at h
      rcases List.mem_cons.1 h with rfl | h
      · exact ha
      · exact ih h
    · rw [List.takeWhile_cons_of_neg ha] at h; cases h

/-- The words in a list of lines. -/
def wordsOf (ls : List Str) : List Str := ((ls.flatMap lineWords).map strip).filter (· ≠ [])

theorem words_eq (s : Str) : words s = wordsOf (splitChar '\n' s) := rfl

/-- The word of one piece, if it is not blank. -/
def wordOf (g : Str) : List Str := if strip g = [] then [] else [strip g]

theorem wordsOf_cons (l : Str) (ls : List Str) :
    wordsOf (l :: ls) = ((lineWords l).map strip).filter (· ≠ []) ++ wordsOf ls := by
  simp [wordsOf, List.filter_append]

theorem splitChar_cons_ne {c a : Char} (h : a ≠ c) (s : Str) :
    ∃ w ws, splitChar c s = w :: ws ∧ splitChar c (a :: s) = (a :: w) :: ws := by
  cases hs : splitChar c s with
  | nil => exact absurd hs (splitChar_ne_nil c s)
  | cons w ws => exact ⟨w, ws, rfl, by simp [splitChar, h, hs]⟩

theorem splitChar_prefix {c : Char} {g : Str} (hg : c ∉ g) (s : Str) :
    ∃ w ws, splitChar c s = w :: ws ∧ splitChar c (g ++ s) = (g ++ w) :: ws := by
  induction g with
  | nil =>
    cases hs : splitChar c s with
    | nil => exact absurd hs (splitChar_ne_nil c s)
    | cons w ws => exact ⟨w, ws, rfl, hs⟩
  | cons a g ih =>
    simp only [List.mem_cons, not_or] at hg
    obtain ⟨w, ws, h1, h2⟩ := ih hg.2
    refine ⟨w, ws, h1, ?_⟩
    obtain ⟨w', ws', h3, h4⟩ := splitChar_cons_ne (Ne.symm hg.1) (g ++ s)
    rw [h2] at h3; cases h3
    exact h4

theorem words_nil : words [] = [] := by decide

theorem words_newline (s : Str) : words ('\n' :: s) = words s := by
  rw [words_eq, words_eq, splitChar, if_pos rfl, wordsOf_cons]
  simp [lineWords, splitChar, strip, stripBy, rstripBy, lstripBy]

theorem words_caret (s : Str) : words ('^' :: s) = words s := by
  obtain ⟨w, ws, h1, h2⟩ := splitChar_cons_ne (c := '\n') (a := '^') (by decide) s
  rw [words_eq, words_eq, h1, h2, wordsOf_cons, wordsOf_cons]
  congr 1

theorem splitChar_dropWhile (s : Str) :
    ∃ w ws w', splitChar '\n' s = w :: ws ∧ splitChar '\n' (s.dropWhile (· != '\n')) = w' :: ws ∧ w' = [] := by
  induction s with
  | nil => exact ⟨[], [], [], rfl, rfl, rfl⟩
  | cons c s ih =>
    by_cases h : c = '\n'
    · subst h
      refine ⟨[], splitChar '\n' s, [], by simp [splitChar], ?_, rfl⟩
      rw [List.dropWhile_cons_of_neg (by decide)]
      simp [splitChar]
    · obtain ⟨w, ws, w', h1, h2, h3⟩ := ih
      obtain ⟨v, vs, h4, h5⟩ := splitChar_cons_ne h s
      rw [h1] at h4; cases h4
      refine ⟨_, _, w', h5, ?_, h3⟩
      rw [List.dropWhile_cons_of_pos (by simpa using h)]
      exact h2

theorem words_hash (s : Str) : words ('#' :: s) = words (s.dropWhile (· != '\n')) := by
  obtain ⟨w, ws, w', h1, h2, h3⟩ := splitChar_dropWhile s
  obtain ⟨v, vs, h4, h5⟩ := splitChar_cons_ne (c := '\n') (a := '#') (by decide) s
  rw [h1] at h4; cases h4
  rw [words_eq, words_eq, h5, h2, wordsOf_cons, wordsOf_cons, h3]
  congr 1

theorem isValueChar_iff {c : Char} : isValueChar c = true ↔ c ≠ '#' ∧ c ≠ '^' ∧ c ≠ '\n' := by
  simp [isValueChar, and_assoc]

theorem takeWhile_append_all {p : Char → Bool} {g : Str} (h : ∀ c ∈ g, p c = true) (s : Str) :
    (g ++ s).takeWhile p = g ++ s.takeWhile p := by
  induction g with
  | nil => rfl
  | cons a g ih =>
    simp only [List.mem_cons, forall_eq_or_imp] at h
    rw [List.cons_append, List.takeWhile_cons_of_pos h.1, ih h.2]; rfl

/-- A piece of ordinary characters before a separator or the end. -/
theorem words_piece {g : Str} (hg : ∀ c ∈ g, isValueChar c = true) {s : Str}
    (hs : s = [] ∨ ∃ c t, s = c :: t ∧ isValueChar c = false) : words (g ++ s) = wordOf g ++ words s := by
  have g1 : '\n' ∉ g := fun h => by have := isValueChar_iff.1 (hg _ h); exact this.2.2 rfl
  have g2 : '^' ∉ g := fun h => by have := isValueChar_iff.1 (hg _ h); exact this.2.1 rfl
  have g3 : ∀ c ∈ g, (c != '#') = true := fun c h => by simpa using (isValueChar_iff.1 (hg _ h)).1
  obtain ⟨w, ws, h1, h2⟩ := splitChar_prefix g1 s
  rw [words_eq, words_eq, h1, h2, wordsOf_cons, wordsOf_cons, ← List.append_assoc]
  congr 1
  have key : lineWords (g ++ w) = (match splitChar '^' (w.takeWhile (· != '#')) with
      | [] => [g] | v :: vs => (g ++ v) :: vs) := by
    rw [lineWords, takeWhile_append_all g3]
    obtain ⟨v, vs, h3, h4⟩ := splitChar_prefix g2 (w.takeWhile (· != '#'))
    rw [h3, h4]
  have single : ∀ v vs, splitChar '^' (w.takeWhile (· != '#')) = v :: vs → v = [] →
      ((lineWords (g ++ w)).map strip).filter (· ≠ []) = wordOf g ++ ((lineWords w).map strip).filter (· ≠ []) := by
    rintro v vs h rfl
    rw [key, lineWords, h]
    simp only [List.append_nil, List.map_cons, List.filter_cons]
    have e : strip [] = [] := rfl
    by_cases hb : strip g = [] <;> simp [wordOf, hb, e]
  rcases hs with rfl | ⟨c, t, rfl, hc⟩
  · simp only [splitChar] at h1
    cases h1
    exact single [] [] rfl rfl
  · have : c = '#' ∨ c = '^' ∨ c = '\n' := by
      cases Decidable.em (c = '#') with
      | inl h => exact .inl h
      | inr h =>
        cases Decidable.em (c = '^') with
        | inl h' => exact .inr (.inl h')
        | inr h' =>
          cases Decidable.em (c = '\n') with
          | inl h'' => exact .inr (.inr h'')
          | inr h'' => rw [isValueChar_iff.2 ⟨h, h', h''⟩] at hc; cases hc
    rcases this with rfl | rfl | rfl
    · obtain ⟨v, vs, h3, h4⟩ := splitChar_cons_ne (c := '\n') (a := '#') (by decide) t
      rw [h4] at h1; cases h1
      exact single [] [] rfl rfl
    · obtain ⟨v, vs, h3, h4⟩ := splitChar_cons_ne (c := '\n') (a := '^') (by decide) t
      rw [h4] at h1; cases h1
      refine single [] (splitChar '^' (v.takeWhile (· != '#'))) ?_ rfl
      rw [List.takeWhile_cons_of_pos (by decide), splitChar, if_pos rfl]
    · rw [splitChar, if_pos rfl] at h1; cases h1
      exact single [] [] rfl rfl

theorem strip_blank {g : Str} (h : ∀ c ∈ g, isSpace c = true) : strip g = [] := by
  have : g.dropWhile isSpace = [] := by
    induction g with
    | nil => rfl
    | cons a g ih =>
      simp only [List.mem_cons, forall_eq_or_imp] at h
      rw [List.dropWhile_cons_of_pos h.1]; exact ih h.2
  rw [strip, stripBy, lstripBy, this]; rfl

/-- White space before a comment does not count. -/
theorem words_blank_hash (w : Str) (hw : ∀ c ∈ w, isSpace c = true) (r : Str) : words (w ++ '#' :: r) = words ('#' :: r) := by
  generalize hn : w.length = n
  induction n using Nat.strongRecOn generalizing w with
  | ind n ih =>
    have e : w = w.takeWhile isValueChar ++ w.dropWhile isValueChar := (List.takeWhile_append_dropWhile ..).symm
    have hg : ∀ c ∈ w.takeWhile isValueChar, isValueChar c = true := fun c h => mem_takeWhile h
    have hb : wordOf (w.takeWhile isValueChar) = [] := by
      rw [wordOf, if_pos (strip_blank fun c h => hw c ((List.takeWhile_subset _) h))]
    cases hd : w.dropWhile isValueChar with
    | nil =>
      rw [hd, List.append_nil] at e
      rw [e, words_piece hg (.inr ⟨'#', r, rfl, by decide⟩), hb]; rfl
    | cons c w' =>
      have hc : isValueChar c = false := by
        exact dropWhile_head hd
      have hmem : ∀ x ∈ c :: w', x ∈ w := fun x h => by rw [e, hd]; exact List.mem_append_right _ h
      have hsp : isSpace c = true := hw c (hmem c (.head _))
      have hnl : c = '\n' := by
        cases Decidable.em (c = '#') with
        | inl h => subst h; exact absurd hsp (by decide)
        | inr h =>
          cases Decidable.em (c = '^') with
          | inl h' => subst h'; exact absurd hsp (by decide)
          | inr h' =>
            cases Decidable.em (c = '\n') with
            | inl h'' => exact h''
            | inr h'' => rw [isValueChar_iff.2 ⟨h, h', h''⟩] at hc; cases hc
      rw [e, hd, List.append_assoc, List.cons_append, words_piece hg (.inr ⟨c, w' ++ '#' :: r, rfl, hc⟩), hb, hnl]
      show words ('\n' :: (w' ++ '#' :: r)) = _
      rw [words_newline]
      have hl : w'.length < n := by
        rw [← hn]
        have := congrArg List.length e
        rw [hd, List.length_append, List.length_cons] at this
        omega
      exact ih _ hl w' (fun x h => hw x (hmem x (.tail _ h))) rfl

theorem words_dropNewlines (s : Str) : words (s.dropWhile (· == '\n')) = words s := by
  induction s with
  | nil => rfl
  | cons c s ih =>
    by_cases h : c = '\n'
    · subst h; rw [List.dropWhile_cons_of_pos (by decide), ih, words_newline]
    · rw [List.dropWhile_cons_of_neg (by simpa using h)]

theorem words_skipComment {s r : Str} (h : skipComment s = some r) : words r = words s := by
  have e : s = s.takeWhile isSpace ++ s.dropWhile isSpace := (List.takeWhile_append_dropWhile ..).symm
  rw [skipComment] at h
  split at h
  · rename_i r' hr
    injection h with h
    rw [← h, words_dropNewlines, ← words_hash]
    rw [hr] at e
    rw [e, words_blank_hash _ (fun c h => mem_takeWhile h)]
  · cases h

theorem words_skipComments (n : Nat) (s : Str) : words (skipComments n s) = words s := by
  induction n generalizing s with
  | zero => rfl
  | succ n ih =>
    rw [skipComments]
    cases h : skipComment s with
    | none => rfl
    | some r => exact (ih r).trans (words_skipComment h)

theorem dropWhile_sublist_length {p : Char → Bool} (s : Str) : (s.dropWhile p).length ≤ s.length :=
  (List.dropWhile_sublist p).length_le

theorem skipComment_length {s r : Str} (h : skipComment s = some r) : r.length < s.length := by
  rw [skipComment] at h
  split at h
  · rename_i r' hr
    injection h with h
    rw [← h]
    have h1 := dropWhile_sublist_length (p := isSpace) s
    rw [hr, List.length_cons] at h1
    have h2 := dropWhile_sublist_length (p := (· != '\n')) r'
    have h3 := dropWhile_sublist_length (p := (· == '\n')) (r'.dropWhile (· != '\n'))
    omega
  · cases h

theorem skipComments_length (n : Nat) (s : Str) : (skipComments n s).length ≤ s.length := by
  induction n generalizing s with
  | zero => exact Nat.le_refl _
  | succ n ih =>
    rw [skipComments]
    cases h : skipComment s with
    | none => exact Nat.le_refl _
    | some r => have := ih r; have := skipComment_length h; simp only; omega

/-- Enough rounds: afterwards no comment is left. -/
theorem skipComments_done (n : Nat) (s : Str) (hn : s.length ≤ n) : skipComment (skipComments n s) = none := by
  induction n generalizing s with
  | zero =>
    have : s = [] := by cases s with | nil => rfl | cons => simp at hn
    subst this; rfl
  | succ n ih =>
    rw [skipComments]
    cases h : skipComment s with
    | none => exact h
    | some r => exact ih r (by have := skipComment_length h; omega)

theorem words_split (r : Str) : words r = wordOf (r.takeWhile isValueChar) ++ words (r.dropWhile isValueChar) := by
  have e : r = r.takeWhile isValueChar ++ r.dropWhile isValueChar := (List.takeWhile_append_dropWhile ..).symm
  conv => lhs; rw [e]
  refine words_piece (fun c h => mem_takeWhile h) ?_
  cases hd : r.dropWhile isValueChar with
  | nil => exact .inl rfl
  | cons c t =>
    exact .inr ⟨c, t, rfl, dropWhile_head hd⟩

/-- When nothing is matched, the first character is '^' or a newline. -/
theorem emptyMatch {c : Char} {s' : Str}
    (hl : ¬ ((skipComments (c :: s').length (c :: s')).dropWhile isValueChar).length < (c :: s').length) :
    isValueChar c = false ∧ c ≠ '#' := by
  have h1 := skipComments_length (c :: s').length (c :: s')
  have h2 := dropWhile_sublist_length (p := isValueChar) (skipComments (c :: s').length (c :: s'))
  have h3 : skipComments (c :: s').length (c :: s') = c :: s' := by
    rw [List.length_cons, skipComments]
    cases h : skipComment (c :: s') with
    | none => rfl
    | some r =>
      have h4 := skipComment_length h
      have h5 := skipComments_length s'.length r
      rw [List.length_cons, skipComments, h] at hl
      have h6 := dropWhile_sublist_length (p := isValueChar) (skipComments s'.length r)
      simp only [List.length_cons] at *
      omega
  rw [h3] at hl
  refine ⟨?_, ?_⟩
  · cases h : isValueChar c with
    | false => rfl
    | true =>
      rw [List.dropWhile_cons_of_pos h] at hl
      have := dropWhile_sublist_length (p := isValueChar) s'
      simp only [List.length_cons] at hl
      omega
  · have hd := skipComments_done (c :: s').length (c :: s') (Nat.le_refl _)
    rw [h3] at hd
    rintro rfl
    rw [skipComment, List.dropWhile_cons_of_neg (by decide)] at hd
    cases hd

theorem findPieces_words (n : Nat) (s : Str) (hn : s.length < n) :
    ((findPieces n s).map strip).filter (· ≠ []) = words s := by
  induction n generalizing s with
  | zero => omega
  | succ n ih =>
    rw [findPieces]
    have e := words_split (skipComments s.length s)
    rw [words_skipComments] at e
    split
    · rename_i hl
      rw [e, List.map_cons, List.filter_cons, ih _ (by omega), wordOf]
      by_cases h : strip ((skipComments s.length s).takeWhile isValueChar) = [] <;> simp [h]
    · rename_i hl
      cases s with
      | nil => rfl
      | cons c s' =>
        rw [if_neg (by simp), List.map_cons]
        rw [List.filter_cons, if_neg (by decide), List.tail_cons, ih s' (by simp at hn; omega)]
        obtain ⟨hc, h⟩ := emptyMatch hl
        cases Decidable.em (c = '^') with
        | inl h' => subst h'; exact (words_caret _).symm
        | inr h' =>
          cases Decidable.em (c = '\n') with
          | inl h'' => subst h''; exact (words_newline _).symm
          | inr h'' => rw [isValueChar_iff.2 ⟨h, h', h''⟩] at hc; cases hc

theorem valuesOf_words (text : Str) : (valuesOf text).filter (· ≠ []) = words text := by
  rw [← findPieces_words (text.length + 1) text (Nat.lt_succ_self _), valuesOf]
  generalize findPieces (text.length + 1) text = l
  induction l with
  | nil => rfl
  | cons g l ih =>
    by_cases h : g = []
    · subst h
      rw [List.filter_cons, if_neg (by decide), List.map_cons, List.filter_cons, if_neg (by decide), ih]
    · rw [List.filter_cons, if_pos (by simpa using h), List.map_cons, List.map_cons, List.filter_cons, List.filter_cons, ih]

/-! ### No empty values -/

/-- No line has a piece that is blank but not empty. -/
def NoBlank (ls : List Str) : Prop := ∀ l ∈ ls, ∀ g ∈ lineWords l, g = [] ∨ strip g ≠ []

theorem tail_lines_append (x r : Str) : ∀ l ∈ (splitChar '\n' r).tail, l ∈ (splitChar '\n' (x ++ r)).tail := by
  induction x with
  | nil => exact fun l h => h
  | cons a x ih =>
    intro l h
    by_cases ha : a = '\n'
    · subst ha
      rw [List.cons_append, splitChar, if_pos rfl, List.tail_cons]
      exact List.mem_of_mem_tail (ih l h)
    · obtain ⟨w, ws, h1, h2⟩ := splitChar_cons_ne ha (x ++ r)
      have := ih l h
      rw [h1] at this
      rw [List.cons_append, h2]
      exact this

theorem noBlank_newlines {s : Str} (h : NoBlank (splitChar '\n' s)) : NoBlank (splitChar '\n' (s.dropWhile (· == '\n'))) := by
  induction s with
  | nil => exact h
  | cons c s ih =>
    by_cases hc : c = '\n'
    · subst hc
      rw [List.dropWhile_cons_of_pos (by decide)]
      rw [splitChar, if_pos rfl] at h
      exact ih fun l hl => h l (.tail _ hl)
    · rwa [List.dropWhile_cons_of_neg (by simpa using hc)]

theorem noBlank_skipComment {s r : Str} (hs : skipComment s = some r) (h : NoBlank (splitChar '\n' s)) :
    NoBlank (splitChar '\n' r) := by
  have e : s = s.takeWhile isSpace ++ s.dropWhile isSpace := (List.takeWhile_append_dropWhile ..).symm
  rw [skipComment] at hs
  split at hs
  · rename_i r' hr
    injection hs with hs
    rw [← hs]
    refine noBlank_newlines ?_
    obtain ⟨w, ws, w', h1, h2, h3⟩ := splitChar_dropWhile r'
    rw [h2, h3]
    intro l hl g hg
    rcases List.mem_cons.1 hl with rfl | hl
    · simp only [lineWords, List.takeWhile_nil, splitChar, List.mem_singleton] at hg
      exact .inl hg
    · refine h l ?_ g hg
      have e2 : s = (s.takeWhile isSpace ++ ['#']) ++ r' := by
        rw [List.append_assoc]; rw [hr] at e; exact e
      have := tail_lines_append (s.takeWhile isSpace ++ ['#']) r' l (by rw [h1]; exact hl)
      rw [← e2] at this
      exact List.mem_of_mem_tail this
  · cases hs

theorem noBlank_skipComments (n : Nat) {s : Str} (h : NoBlank (splitChar '\n' s)) :
    NoBlank (splitChar '\n' (skipComments n s)) := by
  induction n generalizing s with
  | zero => exact h
  | succ n ih =>
    rw [skipComments]
    cases hs : skipComment s with
    | none => exact h
    | some r => exact ih (noBlank_skipComment hs h)

theorem noBlank_tail {c : Char} {s : Str} (hc : isValueChar c = false) (h : NoBlank (splitChar '\n' (c :: s)))
    (hh : c ≠ '#') : NoBlank (splitChar '\n' s) := by
  by_cases hn : c = '\n'
  · subst hn
    rw [splitChar, if_pos rfl] at h
    exact fun l hl => h l (.tail _ hl)
  · have hcar : c = '^' := by
      cases Decidable.em (c = '^') with
      | inl h' => exact h'
      | inr h' => rw [isValueChar_iff.2 ⟨hh, h', hn⟩] at hc; cases hc
    subst hcar
    obtain ⟨w, ws, h1, h2⟩ := splitChar_cons_ne hn s
    rw [h2] at h
    rw [h1]
    intro l hl g hg
    rcases List.mem_cons.1 hl with rfl | hl
    · refine h ('^' :: l) (.head _) g ?_
      rw [lineWords, List.takeWhile_cons_of_pos (by decide), splitChar, if_pos rfl]
      exact .tail _ hg
    · exact h l (.tail _ hl) g hg

/-- A piece of ordinary characters before a separator or the end. -/
theorem noBlank_piece {g : Str} (hg : ∀ c ∈ g, isValueChar c = true) {s : Str}
    (hs : s = [] ∨ ∃ c t, s = c :: t ∧ isValueChar c = false) (h : NoBlank (splitChar '\n' (g ++ s))) :
    (g = [] ∨ strip g ≠ []) ∧ NoBlank (splitChar '\n' s) := by
  have g1 : '\n' ∉ g := fun h => by have := isValueChar_iff.1 (hg _ h); exact this.2.2 rfl
  have g2 : '^' ∉ g := fun h => by have := isValueChar_iff.1 (hg _ h); exact this.2.1 rfl
  have g3 : ∀ c ∈ g, (c != '#') = true := fun c h => by simpa using (isValueChar_iff.1 (hg _ h)).1
  obtain ⟨w, ws, h1, h2⟩ := splitChar_prefix g1 s
  rw [h2] at h
  rw [h1]
  obtain ⟨v, vs, h3, h4⟩ := splitChar_prefix g2 (w.takeWhile (· != '#'))
  have key : lineWords (g ++ w) = (g ++ v) :: vs := by rw [lineWords, takeWhile_append_all g3, h4]
  have hv : v = [] := by
    rcases hs with rfl | ⟨c, t, rfl, hc⟩
    · simp only [splitChar] at h1
      cases h1
      simp only [List.takeWhile_nil, splitChar] at h3
      cases h3; rfl
    · by_cases hn : c = '\n'
      · subst hn
        rw [splitChar, if_pos rfl] at h1; cases h1
        simp only [List.takeWhile_nil, splitChar] at h3
        cases h3; rfl
      · obtain ⟨u, us, h5, h6⟩ := splitChar_cons_ne hn t
        rw [h6] at h1; cases h1
        by_cases hh : c = '#'
        · subst hh
          rw [List.takeWhile_cons_of_neg (by decide), splitChar] at h3
          cases h3; rfl
        · rw [List.takeWhile_cons_of_pos (by simpa using hh)] at h3
          have hcar : c = '^' := by
            cases Decidable.em (c = '^') with
            | inl h' => exact h'
            | inr h' => rw [isValueChar_iff.2 ⟨hh, h', hn⟩] at hc; cases hc
          subst hcar
          rw [splitChar, if_pos rfl] at h3
          cases h3; rfl
  subst hv
  refine ⟨?_, ?_⟩
  · have := h (g ++ w) (.head _) g (by rw [key, List.append_nil]; exact .head _)
    exact this
  · intro l hl x hx
    rcases List.mem_cons.1 hl with rfl | hl
    · rw [lineWords, h3] at hx
      rcases List.mem_cons.1 hx with rfl | hx
      · exact .inl rfl
      · exact h (g ++ l) (.head _) x (by rw [key]; exact .tail _ hx)
    · exact h l (.tail _ hl) x hx

theorem findPieces_noBlank (n : Nat) (s : Str) (h : NoBlank (splitChar '\n' s)) :
    ∀ g ∈ findPieces n s, g = [] ∨ strip g ≠ [] := by
  induction n generalizing s with
  | zero => intro g hg; cases hg
  | succ n ih =>
    intro g hg
    rw [findPieces] at hg
    have h1 := noBlank_skipComments s.length h
    have e : skipComments s.length s = (skipComments s.length s).takeWhile isValueChar ++
      (skipComments s.length s).dropWhile isValueChar := (List.takeWhile_append_dropWhile ..).symm
    rw [e] at h1
    have hd : (skipComments s.length s).dropWhile isValueChar = [] ∨
        ∃ c t, (skipComments s.length s).dropWhile isValueChar = c :: t ∧ isValueChar c = false := by
      cases hd : (skipComments s.length s).dropWhile isValueChar with
      | nil => exact .inl rfl
      | cons c t => exact .inr ⟨c, t, rfl, dropWhile_head hd⟩
    obtain ⟨h2, h3⟩ := noBlank_piece (fun c h => mem_takeWhile h) hd h1
    split at hg
    · rcases List.mem_cons.1 hg with rfl | hg
      · exact h2
      · exact ih _ h3 g hg
    · rename_i hl
      split at hg
      · rw [List.mem_singleton] at hg; exact .inl hg
      · rename_i hne
        rcases List.mem_cons.1 hg with rfl | hg
        · exact .inl rfl
        · cases s with
          | nil => exact absurd rfl hne
          | cons c s' =>
            obtain ⟨hc, hh⟩ := emptyMatch hl
            exact ih s' (noBlank_tail hc h hh) g hg

theorem valuesOf_noBlank {text : Str} (h : NoBlank (splitChar '\n' text)) : valuesOf text = words text := by
  rw [← valuesOf_words]
  refine (List.filter_eq_self.2 fun v hv => ?_).symm
  rw [valuesOf] at hv
  obtain ⟨g, hg, rfl⟩ := List.mem_map.1 hv
  obtain ⟨h1, h2⟩ := List.mem_filter.1 hg
  rcases findPieces_noBlank _ _ h g h1 with rfl | h3
  · simp at h2
  · simpa using h3

end CPE.KW
