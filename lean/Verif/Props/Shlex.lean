import Verif.Spec.Dispatch
import Verif.Proofs.Base
/-
C31, C32: tokenizing option keys.
-/
namespace CPE.Props
open Spec

theorem isSpace_iff (c : Char) : isSpace c = true ↔ White c := by
  unfold isSpace White
  simp only [Bool.or_eq_true, Bool.and_eq_true, decide_eq_true_eq, beq_iff_eq, List.mem_cons, List.not_mem_nil, or_false]
  omega

theorem isShWs_iff (c : Char) : isShWs c = true ↔ c = ' ' ∨ c = '\t' ∨ c = '\r' ∨ c = '\n' := by
  simp [isShWs, or_assoc]

theorem isQuote_iff (c : Char) : isQuote c = true ↔ c = '\'' ∨ c = '"' := by
  simp [isQuote]

/-! ### from the grammar to the function -/

theorem go_single (x : Str) (hx : '\'' ∉ x) (q : Bool) (tok rest : Str) :
    shlexGo (.quote '\'') q tok (x ++ '\'' :: rest) = shlexGo .word true (tok ++ x) rest := by
  induction x generalizing q tok with
  | nil => simp [shlexGo]
  | cons c x ih =>
    simp only [List.mem_cons, not_or] at hx
    have hc : c ≠ '\'' := fun h => hx.1 h.symm
    simp only [List.cons_append, shlexGo, hc, if_false]
    rw [if_neg (by simp), ih hx.2]
    simp

theorem go_double {s x : Str} (h : DoubleQuoted s x) (q : Bool) (tok rest : Str) :
    shlexGo (.quote '"') q tok (s ++ '"' :: rest) = shlexGo .word true (tok ++ x) rest := by
  induction h generalizing q tok with
  | nil => simp [shlexGo]
  | char h1 h2 _ ih =>
    simp only [List.cons_append, shlexGo, h1, h2, if_false]
    rw [if_neg (by simp), ih]
    simp
  | protect h1 _ ih =>
    simp only [List.cons_append, shlexGo]
    rw [if_neg (by decide), if_pos (by decide), if_neg (by rcases h1 with rfl | rfl <;> decide), ih]
    simp
  | keep h1 h2 _ ih =>
    simp only [List.cons_append, shlexGo]
    rw [if_neg (by decide), if_pos (by decide), if_pos (by simp [h1, h2]), ih]
    simp

/-- A piece is consumed in the middle of a word. -/
theorem go_piece {p x : Str} (h : Piece p x) (q : Bool) (tok rest : Str) :
    ∃ q', shlexGo .word q tok (p ++ rest) = shlexGo .word q' (tok ++ x) rest ∧ (q' = true ∨ (q' = q ∧ x ≠ [])) := by
  cases h with
  | bare h1 h2 h3 h4 h5 h6 h7 =>
    refine ⟨q, ?_, .inr ⟨rfl, by simp⟩⟩
    simp only [List.cons_append, List.nil_append, shlexGo]
    rw [if_neg (by rw [isShWs_iff]; simp [h1, h2, h3, h4]), if_neg (by rw [isQuote_iff]; simp [h5, h6]), if_neg h7]
  | escaped =>
    refine ⟨q, ?_, .inr ⟨rfl, by simp⟩⟩
    simp only [List.cons_append, List.nil_append, shlexGo]
    rw [if_neg (by decide), if_neg (by decide), if_pos trivial]
  | single hx =>
    refine ⟨true, ?_, .inl rfl⟩
    simp only [List.cons_append, List.append_assoc, List.nil_append]
    rw [shlexGo, if_neg (by decide), if_pos (by decide), go_single _ hx]
  | double hx =>
    refine ⟨true, ?_, .inl rfl⟩
    simp only [List.cons_append, List.append_assoc, List.nil_append]
    rw [shlexGo, if_neg (by decide), if_pos (by decide), go_double hx]

/-- The first piece of a word. -/
theorem go_first {p x : Str} (h : Piece p x) (rest : Str) :
    ∃ q', shlexGo .space false [] (p ++ rest) = shlexGo .word q' x rest ∧ (q' = true ∨ x ≠ []) := by
  cases h with
  | bare h1 h2 h3 h4 h5 h6 h7 =>
    refine ⟨false, ?_, .inr (by simp)⟩
    simp only [List.cons_append, List.nil_append, shlexGo]
    rw [if_neg (by rw [isShWs_iff]; simp [h1, h2, h3, h4]), if_neg h7, if_neg (by rw [isQuote_iff]; simp [h5, h6])]
  | escaped =>
    refine ⟨false, ?_, .inr (by simp)⟩
    simp only [List.cons_append, List.nil_append, shlexGo]
    rw [if_neg (by decide), if_pos trivial]
  | single hx =>
    refine ⟨true, ?_, .inl rfl⟩
    simp only [List.cons_append, List.append_assoc, List.nil_append]
    rw [shlexGo, if_neg (by decide), if_neg (by decide), if_pos (by decide), go_single _ hx, List.nil_append]
  | double hx =>
    refine ⟨true, ?_, .inl rfl⟩
    simp only [List.cons_append, List.append_assoc, List.nil_append]
    rw [shlexGo, if_neg (by decide), if_neg (by decide), if_pos (by decide), go_double hx, List.nil_append]

theorem go_pieces {s y : Str} (h : Pieces s y) (q : Bool) (tok rest : Str) (hq : q = true ∨ tok ≠ []) :
    ∃ q', shlexGo .word q tok (s ++ rest) = shlexGo .word q' (tok ++ y) rest ∧ (q' = true ∨ tok ++ y ≠ []) := by
  induction h generalizing q tok with
  | nil => exact ⟨q, by simp, by simpa using hq⟩
  | @cons p x s y hp _ ih =>
    obtain ⟨q1, h1, h2⟩ := go_piece hp q tok (s ++ rest)
    obtain ⟨q2, h3, h4⟩ := ih q1 (tok ++ x) (by
      rcases h2 with h2 | ⟨_, h2⟩
      · exact .inl h2
      · exact .inr (by simp [h2]))
    refine ⟨q2, ?_, by simpa using h4⟩
    rw [List.append_assoc, h1, h3, List.append_assoc]

theorem go_blank {b : Str} (hb : Blank b) (rest : Str) : shlexGo .space false [] (b ++ rest) = shlexGo .space false [] rest := by
  induction b with
  | nil => rfl
  | cons c b ih =>
    have hc : isShWs c = true := (isShWs_iff c).mpr (hb c (.head _))
    simp only [List.cons_append, shlexGo, hc, if_true]
    simp only [ne_eq, not_true_eq_false, decide_false, Bool.false_or, Bool.false_eq_true, if_false]
    exact ih fun x hx => hb x (.tail _ hx)

/-- At the end of a word. -/
theorem go_end (q : Bool) (tok rest : Str) (hq : q = true ∨ tok ≠ []) (hr : AtBlank rest) :
    shlexGo .word q tok rest = (tok :: ·) <$> shlexGo .space false [] rest := by
  have hc : (decide (tok ≠ []) || q) = true := by rcases hq with h | h <;> simp [h]
  have hc' : (q || decide (tok ≠ [])) = true := by rcases hq with h | h <;> simp [h]
  rcases hr with rfl | ⟨c, r, rfl, hw⟩
  · simp only [shlexGo, hc', if_true]; rfl
  · have hw' : isShWs c = true := (isShWs_iff c).mpr hw
    simp only [shlexGo, hw', hc, if_true]
    simp

theorem split_of_words {s : Str} {ws : List Str} (h : Words s ws) : shlexGo .space false [] s = .ok ws := by
  induction h with
  | @nil s hb =>
    have := go_blank hb []
    rw [List.append_nil] at this
    rw [this]; rfl
  | @cons b p x s y r ws hb hp hs hr _ ih =>
    rw [List.append_assoc, List.append_assoc, go_blank hb]
    obtain ⟨q1, h1, h2⟩ := go_first hp (s ++ r)
    obtain ⟨q2, h3, h4⟩ := go_pieces hs q1 x r h2
    rw [h1, h3, go_end q2 _ r h4 hr, ih]
    rfl

/-! ### from the function to the grammar -/

/-- What a successful run from each state says about the remaining input. -/
def Reads : LexState → Str → Str → List Str → Prop
  | .space, _, s, ws => Words s ws
  | .word, tok, s, ws => ∃ p y r ws', s = p ++ r ∧ Pieces p y ∧ AtBlank r ∧ Words r ws' ∧ ws = (tok ++ y) :: ws'
  | .quote q, tok, s, ws => ∃ i x p y r ws', s = i ++ q :: p ++ r ∧
      ((q = '\'' ∧ '\'' ∉ i ∧ x = i) ∨ (q = '"' ∧ DoubleQuoted i x)) ∧
      Pieces p y ∧ AtBlank r ∧ Words r ws' ∧ ws = (tok ++ x ++ y) :: ws'
  | .escape none, tok, s, ws => ∃ c p y r ws', s = c :: p ++ r ∧ Pieces p y ∧ AtBlank r ∧ Words r ws' ∧
      ws = (tok ++ c :: y) :: ws'
  | .escape (some q), tok, s, ws => q = '"' ∧ ∃ i x p y r ws', s = i ++ '"' :: p ++ r ∧ DoubleQuoted ('\\' :: i) x ∧
      Pieces p y ∧ AtBlank r ∧ Words r ws' ∧ ws = (tok ++ x ++ y) :: ws'

/-- The states a run goes through. -/
def GoodState : LexState → Bool → Str → Prop
  | .space, q, tok => q = false ∧ tok = []
  | .word, q, tok => q = true ∨ tok ≠ []
  | .quote c, _, _ => c = '\'' ∨ c = '"'
  | .escape none, _, _ => True
  | .escape (some c), _, _ => c = '"'

theorem fmap_ok {x : Except PyExc (List Str)} {t : Str} {ws : List Str} (h : (t :: ·) <$> x = .ok ws) :
    ∃ ws', x = .ok ws' ∧ ws = t :: ws' := by
  cases x with
  | error e => cases h
  | ok ws' => exact ⟨ws', rfl, by cases h; rfl⟩

theorem words_blank_cons {c : Char} {s : Str} {ws : List Str} (hc : c = ' ' ∨ c = '\t' ∨ c = '\r' ∨ c = '\n') (h : Words s ws) :
    Words (c :: s) ws := by
  cases h with
  | nil hb =>
    refine .nil fun x hx => ?_
    rcases List.mem_cons.mp hx with rfl | hx
    · exact hc
    · exact hb x hx
  | @cons b p x s' y r ws hb hp hs hr hw =>
    have : c :: (b ++ p ++ s' ++ r) = (c :: b) ++ p ++ s' ++ r := rfl
    rw [this]
    refine .cons (fun x hx => ?_) hp hs hr hw
    rcases List.mem_cons.mp hx with rfl | hx
    · exact hc
    · exact hb x hx

theorem reads_of_go (s : Str) : ∀ (st : LexState) (q : Bool) (tok : Str) (ws : List Str), GoodState st q tok →
    shlexGo st q tok s = .ok ws → Reads st tok s ws := by
  induction s with
  | nil =>
    intro st q tok ws hg h
    cases st with
    | space =>
      obtain ⟨rfl, rfl⟩ := hg
      cases h
      exact .nil (fun _ h => by cases h)
    | word =>
      have hc : (q || decide (tok ≠ [])) = true := by rcases hg with h | h <;> simp [h]
      simp only [shlexGo, hc, if_true] at h
      cases h
      exact ⟨[], [], [], [], rfl, .nil, .inl rfl, .nil (fun _ h => by cases h), by simp⟩
    | quote c => simp [shlexGo] at h
    | escape b => simp [shlexGo] at h
  | cons c s ih =>
    intro st q tok ws hg h
    cases st with
    | space =>
      obtain ⟨rfl, rfl⟩ := hg
      simp only [shlexGo] at h
      by_cases hw : isShWs c = true
      · rw [if_pos hw, if_neg (by simp)] at h
        exact words_blank_cons ((isShWs_iff c).mp hw) (ih .space false [] ws ⟨rfl, rfl⟩ h)
      · rw [if_neg hw] at h
        rw [isShWs_iff] at hw
        simp only [not_or] at hw
        by_cases hb : c = '\\'
        · rw [if_pos hb] at h
          subst hb
          obtain ⟨c', p, y, r, ws', rfl, h1, h2, h3, rfl⟩ := ih (.escape none) false [] ws trivial h
          have := Words.cons (b := []) (fun _ h => by cases h) (Piece.escaped (c := c')) h1 h2 h3
          simpa [Reads] using this
        · rw [if_neg hb] at h
          by_cases hq : isQuote c = true
          · rw [if_pos hq] at h
            rw [isQuote_iff] at hq
            obtain ⟨i, x, p, y, r, ws', rfl, hx, h1, h2, h3, rfl⟩ := ih (.quote c) false [] ws hq h
            rcases hx with ⟨rfl, hi, rfl⟩ | ⟨rfl, hd⟩
            · have := Words.cons (b := []) (fun _ h => by cases h) (Piece.single hi) h1 h2 h3
              simpa [Reads] using this
            · have := Words.cons (b := []) (fun _ h => by cases h) (Piece.double hd) h1 h2 h3
              simpa [Reads] using this
          · rw [if_neg hq] at h
            rw [isQuote_iff] at hq
            simp only [not_or] at hq
            obtain ⟨p, y, r, ws', rfl, h1, h2, h3, rfl⟩ := ih .word false [c] ws (.inr (by simp)) h
            have := Words.cons (b := []) (fun _ h => by cases h)
              (Piece.bare hw.1 hw.2.1 hw.2.2.1 hw.2.2.2 hq.1 hq.2 hb) h1 h2 h3
            simpa [Reads] using this
    | word =>
      have hc : (decide (tok ≠ []) || q) = true := by rcases hg with h | h <;> simp [h]
      simp only [shlexGo] at h
      by_cases hw : isShWs c = true
      · rw [if_pos hw, if_pos hc] at h
        obtain ⟨ws', h1, rfl⟩ := fmap_ok h
        have hw' := (isShWs_iff c).mp hw
        exact ⟨[], [], c :: s, ws', rfl, .nil, .inr ⟨c, s, rfl, hw'⟩,
          words_blank_cons hw' (ih .space false [] ws' ⟨rfl, rfl⟩ h1), by simp⟩
      · rw [if_neg hw] at h
        rw [isShWs_iff] at hw
        simp only [not_or] at hw
        by_cases hq : isQuote c = true
        · rw [if_pos hq] at h
          rw [isQuote_iff] at hq
          obtain ⟨i, x, p, y, r, ws', rfl, hx, h1, h2, h3, rfl⟩ := ih (.quote c) q tok ws hq h
          rcases hx with ⟨rfl, hi, rfl⟩ | ⟨rfl, hd⟩
          · exact ⟨_, _, r, ws', by simp, Pieces.cons (Piece.single hi) h1, h2, h3, by simp⟩
          · exact ⟨_, _, r, ws', by simp, Pieces.cons (Piece.double hd) h1, h2, h3, by simp⟩
        · rw [if_neg hq] at h
          rw [isQuote_iff] at hq
          simp only [not_or] at hq
          by_cases hb : c = '\\'
          · rw [if_pos hb] at h
            subst hb
            obtain ⟨c', p, y, r, ws', rfl, h1, h2, h3, rfl⟩ := ih (.escape none) q tok ws trivial h
            exact ⟨_, _, r, ws', by simp, Pieces.cons (Piece.escaped (c := c')) h1, h2, h3, by simp⟩
          · rw [if_neg hb] at h
            obtain ⟨p, y, r, ws', rfl, h1, h2, h3, rfl⟩ := ih .word q (tok ++ [c]) ws (.inr (by simp)) h
            exact ⟨_, _, r, ws', by simp, Pieces.cons (Piece.bare hw.1 hw.2.1 hw.2.2.1 hw.2.2.2 hq.1 hq.2 hb) h1, h2, h3, by simp⟩
    | quote d =>
      simp only [shlexGo] at h
      by_cases hcd : c = d
      · rw [if_pos hcd] at h
        subst hcd
        obtain ⟨p, y, r, ws', rfl, h1, h2, h3, rfl⟩ := ih .word true tok ws (.inl rfl) h
        rcases hg with rfl | rfl
        · exact ⟨[], [], p, y, r, ws', rfl, .inl ⟨rfl, by simp, rfl⟩, h1, h2, h3, by simp⟩
        · exact ⟨[], [], p, y, r, ws', rfl, .inr ⟨rfl, .nil⟩, h1, h2, h3, by simp⟩
      · rw [if_neg hcd] at h
        by_cases hb : (decide (c = '\\') && decide (d = '"')) = true
        · rw [if_pos hb] at h
          simp only [Bool.and_eq_true, decide_eq_true_eq] at hb
          obtain ⟨rfl, rfl⟩ := hb
          obtain ⟨-, i, x, p, y, r, ws', rfl, hx, h1, h2, h3, rfl⟩ := ih (.escape (some '"')) true tok ws rfl h
          exact ⟨'\\' :: i, x, p, y, r, ws', rfl, .inr ⟨rfl, hx⟩, h1, h2, h3, rfl⟩
        · rw [if_neg hb] at h
          simp only [Bool.and_eq_true, decide_eq_true_eq, not_and] at hb
          obtain ⟨i, x, p, y, r, ws', rfl, hx, h1, h2, h3, rfl⟩ := ih (.quote d) true (tok ++ [c]) ws hg h
          rcases hx with ⟨rfl, hi, rfl⟩ | ⟨rfl, hd⟩
          · exact ⟨c :: x, c :: x, p, y, r, ws', rfl, .inl ⟨rfl, by simp [hi, Ne.symm hcd], rfl⟩, h1, h2, h3, by simp⟩
          · exact ⟨c :: i, c :: x, p, y, r, ws', rfl, .inr ⟨rfl, .char hcd (fun h => hb h rfl) hd⟩, h1, h2, h3, by simp⟩
    | escape b =>
      cases b with
      | none =>
        simp only [shlexGo] at h
        obtain ⟨p, y, r, ws', rfl, h1, h2, h3, rfl⟩ := ih .word q (tok ++ [c]) ws (.inr (by simp)) h
        exact ⟨c, p, y, r, ws', rfl, h1, h2, h3, by simp⟩
      | some d =>
        have hd : d = '"' := hg
        subst hd
        simp only [shlexGo] at h
        refine ⟨rfl, ?_⟩
        by_cases hc : (decide (c ≠ '\\') && decide (c ≠ '"')) = true
        · rw [if_pos hc] at h
          simp only [Bool.and_eq_true, decide_eq_true_eq] at hc
          obtain ⟨i, x, p, y, r, ws', rfl, hx, h1, h2, h3, rfl⟩ := ih (.quote '"') q (tok ++ ['\\', c]) ws (.inr rfl) h
          rcases hx with ⟨hx, -⟩ | ⟨-, hx⟩
          · exact absurd hx (by decide)
          · exact ⟨c :: i, '\\' :: c :: x, p, y, r, ws', rfl, .keep hc.2 hc.1 hx, h1, h2, h3, by simp⟩
        · rw [if_neg hc] at h
          simp only [Bool.and_eq_true, decide_eq_true_eq, not_and, ne_eq, Classical.not_not] at hc
          obtain ⟨i, x, p, y, r, ws', rfl, hx, h1, h2, h3, rfl⟩ := ih (.quote '"') q (tok ++ [c]) ws (.inr rfl) h
          rcases hx with ⟨hx, -⟩ | ⟨-, hx⟩
          · exact absurd hx (by decide)
          · refine ⟨c :: i, c :: x, p, y, r, ws', rfl, .protect ?_ hx, h1, h2, h3, by simp⟩
            by_cases h' : c = '\\'
            · exact .inr h'
            · exact .inl (hc h')

/-- C31: tokenizing splits a key into blank-separated words with shell quoting, and nothing else. -/
theorem C31_split_iff_words (s : Str) (ws : List Str) : shlexSplit s = .ok ws ↔ Words s ws :=
  ⟨reads_of_go s .space false [] ws ⟨rfl, rfl⟩, split_of_words⟩

/-- All failures are ValueErrors. -/
theorem go_error (s : Str) : ∀ (st : LexState) (q : Bool) (tok : Str) (e : PyExc), shlexGo st q tok s = .error e → e = .valueError := by
  induction s with
  | nil =>
    intro st q tok e h
    cases st <;> simp [shlexGo] at h
    · exact h.symm
    · exact h.symm
  | cons c s ih =>
    have hmap : ∀ (x : Except PyExc (List Str)) (t : Str) (e : PyExc), (t :: ·) <$> x = .error e → x = .error e := by
      intro x t e h
      cases x with
      | error e' => cases h; rfl
      | ok _ => cases h
    intro st q tok e h
    cases st with
    | space =>
      simp only [shlexGo] at h
      split at h
      · split at h
        · exact ih _ _ _ _ (hmap _ _ _ h)
        · exact ih _ _ _ _ h
      · split at h
        · exact ih _ _ _ _ h
        · split at h <;> exact ih _ _ _ _ h
    | word =>
      simp only [shlexGo] at h
      split at h
      · split at h
        · exact ih _ _ _ _ (hmap _ _ _ h)
        · exact ih _ _ _ _ h
      · split at h
        · exact ih _ _ _ _ h
        · split at h <;> exact ih _ _ _ _ h
    | quote d =>
      simp only [shlexGo] at h
      split at h
      · exact ih _ _ _ _ h
      · split at h <;> exact ih _ _ _ _ h
    | escape b =>
      cases b with
      | none => exact ih _ _ _ _ h
      | some d =>
        simp only [shlexGo] at h
        split at h <;> exact ih _ _ _ _ h

/-- C31: a key that is not made of such words is refused with ValueError. -/
theorem C31_split_refuses (s : Str) (h : ¬ ∃ ws, Words s ws) : shlexSplit s = .error .valueError := by
  cases hx : shlexSplit s with
  | error e => rw [go_error s _ _ _ e hx]
  | ok ws => exact absurd ⟨ws, (C31_split_iff_words s ws).mp hx⟩ h

/-- C31: a list of words without single quotes, each written between single quotes and separated by blanks, is
tokenized to that list. -/
theorem C31_quoted_words (words : List Str) (h : ∀ x ∈ words, '\'' ∉ x) :
    shlexSplit ((words.map fun x => '\'' :: x ++ ['\'']).intersperse [' ']).flatten = .ok words := by
  rw [C31_split_iff_words]
  induction words with
  | nil => exact .nil (fun _ h => by cases h)
  | cons x words ih =>
    have ih' := ih fun y hy => h y (.tail _ hy)
    have hx := Piece.single (h x (.head _))
    cases words with
    | nil =>
      have := Words.cons (b := []) (r := []) (fun _ h => by cases h) hx .nil (.inl rfl) (.nil (fun _ h => by cases h))
      simpa using this
    | cons y words =>
      have := Words.cons (b := []) (fun _ h => by cases h) hx .nil (.inr ⟨' ', _, rfl, .inl rfl⟩) (words_blank_cons (.inl rfl) ih')
      simpa using this

/-- C31: `use 'N'` names exactly the section `N`. -/
theorem C31_use_quoted (N : Str) (h : '\'' ∉ N) : shlexSplit (py!"use '" ++ N ++ py!"'") = .ok [py!"use", N] := by
  rw [C31_split_iff_words]
  have bare : ∀ c ∈ py!"use", Piece [c] [c] := by
    intro c hc
    simp only [List.mem_cons, List.not_mem_nil, or_false] at hc
    rcases hc with rfl | rfl | rfl <;> exact .bare (by decide) (by decide) (by decide) (by decide) (by decide) (by decide) (by decide)
  have hse : Pieces py!"se" py!"se" :=
    .cons (bare 's' (by decide)) (.cons (p := ['e']) (x := ['e']) (bare 'e' (by decide)) .nil)
  have hN : Words (' ' :: ('\'' :: N ++ ['\''])) [N] := by
    have := Words.cons (b := [' ']) (r := []) (fun c h => by simp at h; exact .inl h) (Piece.single h) .nil (.inl rfl)
      (.nil (fun _ h => by cases h))
    simpa using this
  have := Words.cons (b := []) (fun _ h => by cases h) (bare 'u' (by decide)) hse (.inr ⟨' ', _, rfl, .inl rfl⟩) hN
  simpa using this

/-- C31: a name made of ordinary characters needs no quotes. -/
theorem C31_use_bare (N : Str) (hne : N ≠ [])
    (h : ∀ c ∈ N, c ∉ [' ', '\t', '\r', '\n', '\'', '"', '\\']) : shlexSplit (py!"use " ++ N) = .ok [py!"use", N] := by
  rw [C31_split_iff_words]
  have bare : ∀ c, c ∉ [' ', '\t', '\r', '\n', '\'', '"', '\\'] → Piece [c] [c] := by
    intro c hc
    simp only [List.mem_cons, List.not_mem_nil, or_false, not_or] at hc
    exact .bare hc.1 hc.2.1 hc.2.2.1 hc.2.2.2.1 hc.2.2.2.2.1 hc.2.2.2.2.2.1 hc.2.2.2.2.2.2
  have pieces : ∀ l : Str, (∀ c ∈ l, c ∉ [' ', '\t', '\r', '\n', '\'', '"', '\\']) → Pieces l l := by
    intro l
    induction l with
    | nil => intro _; exact .nil
    | cons c l ih =>
      intro hl
      exact .cons (p := [c]) (x := [c]) (bare c (hl c (.head _))) (ih fun x hx => hl x (.tail _ hx))
  cases N with
  | nil => exact absurd rfl hne
  | cons c N =>
    have hN : Words (' ' :: c :: N) [c :: N] := by
      have := Words.cons (b := [' ']) (r := []) (fun c h => by simp at h; exact .inl h) (bare c (h c (.head _)))
        (pieces N fun x hx => h x (.tail _ hx)) (.inl rfl) (.nil (fun _ h => by cases h))
      simpa using this
    have := Words.cons (b := []) (fun _ h => by cases h) (bare 'u' (by decide)) (pieces py!"se" (by decide))
      (.inr ⟨' ', _, rfl, .inl rfl⟩) hN
    simpa using this

example : shlexSplit py!"use 'a b' x\\ y \"q\\\"\\n\"''" = .ok [py!"use", py!"a b", py!"x y", py!"q\"\\n"] := by decide +kernel

example : '\'' ∉ py!"my \"section\" \\ #1" ∧
    shlexSplit py!"use 'my \"section\" \\ #1'" = .ok [py!"use", py!"my \"section\" \\ #1"] := by decide +kernel

example : shlexSplit py!"use 'a" = .error .valueError := by decide +kernel

/-! ### C32 -/

/-- C32: tokenizing a key that has a character other than Python white space never gives an empty list, so there is
always an operation word. -/
theorem C32_nonblank_key_has_operation (k : Str) (h : ∃ c ∈ k, ¬ White c) :
    (∃ w ws, tokenizeOptionKey k = .ok (w :: ws)) ∨ tokenizeOptionKey k = .error .valueError := by
  replace h : ∃ c ∈ k, isSpace c = false := by
    obtain ⟨c, hc, hw⟩ := h
    exact ⟨c, hc, by rw [← isSpace_iff] at hw; simpa using hw⟩
  unfold tokenizeOptionKey
  cases hx : shlexSplit (strip k) with
  | error e => right; rw [go_error _ _ _ _ e hx]
  | ok ws =>
    left
    cases ws with
    | cons w ws => exact ⟨w, ws, rfl⟩
    | nil =>
      exfalso
      rw [C31_split_iff_words] at hx
      generalize hs : strip k = s at hx
      cases hx with
      | nil hb =>
        obtain ⟨c, hc, hcs⟩ := h
        have hmem : c ∈ strip k := mem_stripBy hc hcs
        rw [hs] at hmem
        rcases hb c hmem with rfl | rfl | rfl | rfl <;> exact absurd hcs (by decide)

/-- C32: and a key of white space only (the only case left) gives the empty list. -/
theorem C32_blank_key (k : Str) (h : ∀ c ∈ k, White c) : tokenizeOptionKey k = .ok [] := by
  replace h : ∀ c ∈ k, isSpace c = true := fun c hc => (isSpace_iff c).2 (h c hc)
  have : strip k = [] := by
    unfold strip stripBy lstripBy
    have : k.dropWhile isSpace = [] := by
      induction k with
      | nil => rfl
      | cons c k ih =>
        rw [List.dropWhile_cons, if_pos (h c (.head _))]
        exact ih fun x hx => h x (.tail _ hx)
    rw [this]; rfl
  unfold tokenizeOptionKey
  rw [this]; rfl

example : tokenizeOptionKey py!"  'use' " = .ok [py!"use"] ∧ tokenizeOptionKey py!" \t\n" = .ok [] := by decide +kernel

end CPE.Props
