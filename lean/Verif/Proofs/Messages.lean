import Verif.Spec.Messages
import Verif.Proofs.ConfigKeywords
import Verif.Props.Dispatch
/-
Lemmas for the messages of the keyword tools.
-/
namespace CPE.KW
open CPE CPE.Spec CPE.SetEnv CPE.KW.Spec

/-! ### Lines -/

theorem isBreak_iff (c : Char) : isBreak c = true ↔ Break c := by
  unfold isBreak Break; rw [List.contains_iff_mem]

theorem break_newline : Break '\n' := by unfold Break; decide

theorem splitLinesFrom_oneLine {l : Str} (hl : OneLine l) (acc s : Str) :
    splitLinesFrom acc false (l ++ s) = splitLinesFrom (l.reverse ++ acc) false s := by
  induction l generalizing acc with
  | nil => rfl
  | cons c l ih =>
    have hc : ¬ isBreak c = true := fun h => hl c (by simp) ((isBreak_iff c).1 h)
    rw [List.cons_append, splitLinesFrom, if_neg (by simp), if_neg hc, ih (fun x hx => hl x (by simp [hx]))]
    simp

/-- The text after a carriage return, without the line feed that belongs to it. -/
def afterCR : Str → Str
  | [] => []
  | c :: s => if c = '\n' then s else c :: s

theorem splitLinesFrom_cr {s : Str} (h : s.head? ≠ some '\n') (acc : Str) : splitLinesFrom acc true s = splitLinesFrom acc false s := by
  cases s with
  | nil => rfl
  | cons c s =>
    have hc : ¬ (true = true ∧ c = '\n') := fun hc => h (by simp [hc.2])
    have h0 : ¬ (false = true ∧ c = '\n') := by simp
    rw [splitLinesFrom, if_neg hc]
    conv => rhs; rw [splitLinesFrom, if_neg h0]

theorem lines_splitLines (s : Str) :
    (∀ acc, OneLine acc → Lines (acc.reverse ++ s) (splitLinesFrom acc false s)) ∧
    Lines (afterCR s) (splitLinesFrom [] true s) := by
  induction s with
  | nil =>
    refine ⟨fun acc ha => ?_, .none⟩
    rw [splitLinesFrom]
    by_cases h : acc = []
    · subst h; exact .none
    · rw [if_neg h, List.append_nil]
      exact .last (by simpa using h) (fun c hc => ha c (by simpa using hc))
  | cons c s ih =>
    have key : ∀ acc, OneLine acc → Lines (acc.reverse ++ c :: s) (splitLinesFrom acc false (c :: s)) := by
      intro acc ha
      rw [splitLinesFrom, if_neg (by simp)]
      by_cases hb : isBreak c = true
      · rw [if_pos hb]
        have hr : OneLine acc.reverse := fun x hx => ha x (by simpa using hx)
        by_cases hc : c = '\r'
        · subst hc
          have h2 := ih.2
          cases s with
          | nil =>
            have := Lines.line (b := py!"\r") (s := []) hr (.inr ⟨_, rfl, (isBreak_iff _).1 hb⟩) (by simp) h2
            rwa [List.append_nil] at this
          | cons e t =>
            by_cases he : e = '\n'
            · subst he
              have : acc.reverse ++ '\r' :: '\n' :: t = acc.reverse ++ py!"\r\n" ++ t := by simp
              rw [this]
              rw [afterCR, if_pos rfl] at h2
              exact .line hr (.inl rfl) (by simp) h2
            · rw [afterCR, if_neg he] at h2
              have : acc.reverse ++ '\r' :: e :: t = acc.reverse ++ ['\r'] ++ e :: t := by simp
              rw [this]
              exact .line hr (.inr ⟨_, rfl, (isBreak_iff _).1 hb⟩) (by simp [he]) h2
        · have h0 : (c == '\r') = false := by simpa using hc
          rw [h0]
          have : acc.reverse ++ c :: s = acc.reverse ++ [c] ++ s := by simp
          rw [this]
          refine .line hr (.inr ⟨_, rfl, (isBreak_iff _).1 hb⟩) ?_ (ih.1 [] (by simp [OneLine]))
          rintro ⟨h, -⟩
          simp only [List.cons.injEq, and_true] at h
          exact hc (by simpa using h)
      · rw [if_neg hb]
        have := ih.1 (c :: acc) (by
          intro x hx
          rcases List.mem_cons.1 hx with rfl | hx
          · exact fun h => hb ((isBreak_iff _).2 h)
          · exact ha x hx)
        simpa using this
    refine ⟨key, ?_⟩
    by_cases hc : c = '\n'
    · subst hc
      rw [splitLinesFrom, if_pos ⟨rfl, rfl⟩, afterCR, if_pos rfl]
      exact ih.1 [] (by simp [OneLine])
    · rw [splitLinesFrom_cr (by simpa using hc), afterCR, if_neg hc]
      exact key [] (by simp [OneLine])

theorem lines_exist (s : Str) : Lines s (splitLines s) := (lines_splitLines s).1 [] (by simp [OneLine])

theorem splitLines_of {s : Str} {ls : List Str} (h : Lines s ls) : splitLines s = ls := by
  induction h with
  | none => rfl
  | @last l hne h1 =>
    have := splitLinesFrom_oneLine h1 [] []
    rw [List.append_nil, List.append_nil] at this
    rw [splitLines, this, splitLinesFrom, if_neg (by simpa using hne), List.reverse_reverse]
  | @line l b s ls h1 hb hn _ ih =>
    rw [splitLines, List.append_assoc, splitLinesFrom_oneLine h1, List.append_nil]
    rcases hb with rfl | ⟨c, rfl, hc⟩
    · show splitLinesFrom l.reverse false ('\r' :: '\n' :: s) = _
      rw [splitLinesFrom, if_neg (by simp), if_pos (by decide), splitLinesFrom, if_pos (by decide), List.reverse_reverse]
      rw [← ih]; rfl
    · rw [List.cons_append, List.nil_append, splitLinesFrom, if_neg (by simp), if_pos ((isBreak_iff c).2 hc), List.reverse_reverse]
      rw [← ih, splitLines]
      by_cases hr : c = '\r'
      · subst hr
        have : ('\r' == '\r') = true := by decide
        rw [this, splitLinesFrom_cr (fun h => hn ⟨rfl, h⟩)]
      · have : (c == '\r') = false := by simpa using hr
        rw [this]

theorem lines_unique {s : Str} {ls ls' : List Str} (h : Lines s ls) (h' : Lines s ls') : ls = ls' :=
  (splitLines_of h).symm.trans (splitLines_of h')

theorem lines_oneLine {s : Str} {ls : List Str} (h : Lines s ls) : ∀ l ∈ ls, OneLine l := by
  induction h with
  | none => simp
  | last _ h1 => simpa using h1
  | line h1 _ _ _ ih =>
    intro x hx
    rcases List.mem_cons.1 hx with rfl | hx
    · exact h1
    · exact ih x hx

/-- Every line followed by a line feed. -/
def unlines (ls : List Str) : Str := ls.flatMap fun l => l ++ ['\n']

theorem unlines_cons (l : Str) (ls : List Str) : unlines (l :: ls) = l ++ '\n' :: unlines ls := by simp [unlines]

theorem unlines_append (a b : List Str) : unlines (a ++ b) = unlines a ++ unlines b := by simp [unlines]

theorem lines_unlines {ls : List Str} (hl : ∀ l ∈ ls, OneLine l) {s : Str} {rs : List Str} (hs : Lines s rs) :
    Lines (unlines ls ++ s) (ls ++ rs) := by
  induction ls with
  | nil => exact hs
  | cons l ls ih =>
    have : unlines (l :: ls) ++ s = l ++ ['\n'] ++ (unlines ls ++ s) := by simp [unlines]
    rw [this]
    exact .line (hl l (by simp)) (.inr ⟨_, rfl, break_newline⟩) (by simp) (ih fun x hx => hl x (by simp [hx]))

/-! ### White space at the end of the lines -/

theorem dropWhile_all {p : Char → Bool} {l : Str} (h : ∀ c ∈ l, p c = true) : l.dropWhile p = [] := by
  induction l with
  | nil => rfl
  | cons a l ih => rw [List.dropWhile_cons, if_pos (h a (by simp)), ih fun c hc => h c (by simp [hc])]

theorem squeeze_plain {run : Str} (h : '\n' ∉ run) : squeeze run = run := by
  have : run.reverse.dropWhile (· != '\n') = [] := by
    apply dropWhile_all
    intro c hc
    have : c ≠ '\n' := by rintro rfl; exact h (by simpa using hc)
    simpa using this
  unfold squeeze
  rw [this]

theorem squeeze_line (run : Str) : squeeze (run ++ ['\n']) = ['\n'] := by
  have h1 : (run ++ ['\n']).reverse = '\n' :: run.reverse := by simp
  unfold squeeze
  rw [h1]
  cases hr : run.reverse with
  | nil =>
    have : run = [] := by simpa using hr
    subst this; rfl
  | cons a t =>
    have h2 : ('\n' :: a :: t).dropWhile (· != '\n') = '\n' :: a :: t := by rw [List.dropWhile_cons, if_neg (by decide)]
    have h3 : ('\n' :: a :: t).takeWhile (· != '\n') = [] := by rw [List.takeWhile_cons, if_neg (by decide)]
    rw [h2, h3]; rfl

theorem rstrip_after {x l : Str} {c : Char} (hc : isSpace c = false) : rstrip (x ++ c :: l) = x ++ c :: rstrip l := by
  unfold rstrip rstripBy
  have : (x ++ c :: l).reverse = l.reverse ++ (c :: x.reverse) := by simp
  rw [this, List.dropWhile_append]
  split
  · next h =>
    have : List.dropWhile isSpace l.reverse = [] := by simpa using h
    rw [this, List.dropWhile_cons, if_neg (by simp [hc])]
    simp
  · simp

theorem rstrip_spaces {l : Str} (h : ∀ c ∈ l, isSpace c = true) : rstrip l = [] := by
  unfold rstrip rstripBy
  rw [dropWhile_all (by intro c hc; exact h c (by simpa using hc))]
  rfl

theorem trim_line {rest : Str} (hr : ∀ c, rest.head? = some c → isSpace c = false) (l : Str) (hl : '\n' ∉ l) (run : Str)
    (hs : ∀ c ∈ run, isSpace c = true) (hn : '\n' ∉ run) :
    trimLinesFrom run (l ++ '\n' :: rest) = rstrip (run ++ l) ++ '\n' :: trimLinesFrom [] rest := by
  induction l generalizing run with
  | nil =>
    rw [List.nil_append, List.append_nil, rstrip_spaces hs, trimLinesFrom, if_pos (by decide), List.nil_append]
    cases rest with
    | nil => rw [trimLinesFrom, squeeze_line, trimLinesFrom]; rfl
    | cons c t =>
      have hc : ¬ isSpace c = true := by rw [hr c rfl]; simp
      rw [trimLinesFrom, if_neg hc, squeeze_line, trimLinesFrom, if_neg hc]
      rfl
  | cons c l ih =>
    have hl' : '\n' ∉ l := fun h => hl (by simp [h])
    rw [List.cons_append, trimLinesFrom]
    by_cases hc : isSpace c = true
    · rw [if_pos hc, ih hl' (run ++ [c]) (by
        intro x hx
        rcases List.mem_append.1 hx with hx | hx
        · exact hs x hx
        · rw [List.mem_singleton.1 hx]; exact hc) (by
        intro hx
        rcases List.mem_append.1 hx with hx | hx
        · exact hn hx
        · exact hl (by rw [List.mem_singleton.1 hx]; simp))]
      simp
    · rw [if_neg hc, ih hl' [] (by simp) (by simp), squeeze_plain hn, rstrip_after (by simpa using hc)]
      simp

theorem endTrimmed_rstrip (l : Str) : EndTrimmed l (rstrip l) := by
  obtain ⟨b, hb, hw⟩ := rstripBy_split isSpace l
  refine ⟨b, hb, fun c hc => (Props.isSpace_iff c).1 (hw c hc), fun c hc hw' => ?_⟩
  have := rstripBy_last (p := isSpace) (s := l) hc
  rw [(Props.isSpace_iff c).2 hw'] at this
  cases this

theorem endTrimmed_eq {l t : Str} (h : EndTrimmed l t) : t = rstrip l := by
  obtain ⟨w, rfl, hw, ht⟩ := h
  have hw' : ∀ c ∈ w, isSpace c = true := fun c hc => (Props.isSpace_iff c).2 (hw c hc)
  rcases List.eq_nil_or_concat t with rfl | ⟨t', c, rfl⟩
  · rw [List.nil_append, rstrip_spaces hw']
  · have hc : isSpace c = false := by
      have := ht c (by simp)
      cases hx : isSpace c with
      | false => rfl
      | true => exact absurd ((Props.isSpace_iff c).1 hx) this
    have : t' ++ [c] ++ w = t' ++ c :: w := by simp
    rw [List.concat_eq_append, this, rstrip_after hc, rstrip_spaces hw']

theorem shown_unique {ls : List Str} {s s' : Str} (h : Shown ls s) (h' : Shown ls s') : s = s' := by
  induction h generalizing s' with
  | nil => cases h'; rfl
  | cons h1 _ ih =>
    cases h' with
    | cons h2 h3 => rw [endTrimmed_eq h1, endTrimmed_eq h2, ih h3]

/-- A line that begins with something visible. -/
def Visible (l : Str) : Prop := '\n' ∉ l ∧ ∃ c t, l = c :: t ∧ isSpace c = false

theorem trim_lines {ls : List Str} (hl : ∀ l ∈ ls, Visible l) : Shown ls (trimLinesFrom [] (unlines ls)) := by
  induction ls with
  | nil => exact .nil
  | cons l ls ih =>
    have hr : ∀ c, (unlines ls).head? = some c → isSpace c = false := by
      intro c hc
      cases ls with
      | nil => simp [unlines] at hc
      | cons a b =>
        obtain ⟨-, e, t, rfl, he⟩ := hl a (by simp)
        rw [unlines_cons] at hc
        simp at hc
        rw [← hc]; exact he
    rw [unlines_cons, trim_line hr l (hl l (by simp)).1 [] (by simp) (by simp), List.nil_append]
    exact .cons (endTrimmed_rstrip l) (ih fun x hx => hl x (by simp [hx]))

theorem trim_first {ls : List Str} (hl : ∀ l ∈ ls, Visible l) (hne : ls ≠ []) :
    ∃ s, Shown ls s ∧ trimLines ('\n' :: unlines ls) = '\n' :: s := by
  refine ⟨_, trim_lines hl, ?_⟩
  rw [trimLines, trimLinesFrom, if_pos (by decide), List.nil_append]
  cases ls with
  | nil => exact absurd rfl hne
  | cons a b =>
    obtain ⟨-, e, t, rfl, he⟩ := hl a (by simp)
    rw [unlines_cons, List.cons_append, trimLinesFrom, if_neg (by simp [he]), trimLinesFrom, if_neg (by simp [he])]
    rfl

/-! ### The message -/

theorem headLines_unlines {kind : Str} {ls h : List Str} (hh : Headed kind ls h) : headLines kind ls = unlines h := by
  cases hh with
  | none => rfl
  | some =>
    simp [headLines, unlines, List.flatMap_map]

theorem headed_exist (kind : Str) (ls : List Str) : ∃ h, Headed kind ls h := by
  cases ls with
  | nil => exact ⟨_, .none⟩
  | cons l ls => exact ⟨_, .some⟩

theorem headed_visible {kind : Str} (hk : '\n' ∉ kind) {ls h : List Str} (hl : ∀ l ∈ ls, OneLine l) (hh : Headed kind ls h) :
    ∀ x ∈ h, Visible x := by
  have hnb : ∀ l ∈ ls, '\n' ∉ l := fun l hm hn => hl l hm _ hn break_newline
  cases hh with
  | none => simp
  | @some l ls =>
    intro x hx
    rcases List.mem_cons.1 hx with rfl | hx
    · refine ⟨?_, '|', _, rfl, by decide⟩
      have := hnb l (by simp)
      simp [hk, this]
    · obtain ⟨y, hy, rfl⟩ := List.mem_map.1 hx
      refine ⟨?_, '|', _, rfl, by decide⟩
      have := hnb y (by simp [hy])
      simp [this]

theorem bar_frame : bar = frame := by decide

theorem formatted_message {msg kind extras : Str} {ls es : List Str} (hk : '\n' ∉ kind) (hm : Lines msg ls) (he : Lines extras es) :
    Message ls kind es (formattedMsg msg kind extras) := by
  obtain ⟨h, hh⟩ := headed_exist kind ls
  have hv : ∀ l ∈ [frame] ++ h ++ es.map (py!"|   " ++ ·) ++ [frame], Visible l := by
    have hf : Visible frame := ⟨by decide, '+', _, rfl, by decide⟩
    intro l hl
    rcases List.mem_append.1 hl with hl | hl
    · rcases List.mem_append.1 hl with hl | hl
      · rcases List.mem_append.1 hl with hl | hl
        · rw [List.mem_singleton.1 hl]; exact hf
        · exact headed_visible hk (lines_oneLine hm) hh l hl
      · obtain ⟨y, hy, rfl⟩ := List.mem_map.1 hl
        refine ⟨?_, '|', _, rfl, by decide⟩
        have := fun hn => lines_oneLine he y hy _ hn break_newline
        simpa using this
    · rw [List.mem_singleton.1 hl]; exact hf
  obtain ⟨s, hs, e⟩ := trim_first hv (by simp)
  refine ⟨h, s, hh, hs, ?_⟩
  rw [← e]
  unfold formattedMsg
  rw [splitLines_of hm, splitLines_of he, headLines_unlines hh, bar_frame]
  generalize frame = fr
  congr 1
  simp [unlines, List.flatMap_map]

theorem message_unique {ls es : List Str} {kind t t' : Str} (h : Message ls kind es t) (h' : Message ls kind es t') : t = t' := by
  obtain ⟨a, s, ha, hs, rfl⟩ := h
  obtain ⟨b, s', hb, hs', rfl⟩ := h'
  have : a = b := by cases ha <;> cases hb <;> rfl
  subst this
  rw [shown_unique hs hs']

/-! ### Flags -/

section
variable {E : Env Unit Unit} {n : Nat} {d : Options} {o1 : CObj}

/-- What the loop over the flags gives. -/
def flagListRes (d : Options) : List Str → Out Str
  | [] => .ok []
  | f :: fs => andThen (typeRes d f) fun p => andThen (flagListRes d fs) fun r => .ok (flagLines f p.1 p.2 ++ r)

theorem flagsLoop_read (h : edGetItem E n flagSection o1 = (.ok d, o1)) (fs : List Str) :
    flagsLoop E n fs o1 = (flagListRes d fs, o1) := by
  induction fs with
  | nil => rfl
  | cons f fs ih =>
    rw [flagsLoop, flagListRes]
    exact andThen_bind (optionsAndType_read h f) fun p => andThen_bind ih fun r => rfl

theorem flagsMsg_read (h : edGetItem E n flagSection o1 = (.ok d, o1)) {k : CKP} (hk : CkpInv d o1 k) (path msg kind : Str) :
    CKP.flagsMsg E n path msg kind k = (andThen (flagListRes d (Dict.keys d)) fun t =>
      .ok (formattedMsg msg kind (py!"\n- Supported Flags Are:\n" ++ t ++ (py!"\nSee " ++ path ++ py!" for details."))), k) := by
  unfold CKP.flagsMsg
  rw [M.read_bind]
  have h1 : CKP.onObj (flagsLoop E n k.flagNames) k = (flagListRes d (Dict.keys d), k) := by
    apply onObj_read
    rw [hk.obj, hk.flags]
    exact flagsLoop_read h _
  exact andThen_bind h1 fun t => rfl

theorem flagLines_unlines {f : Flag} {a : List Str} (h : FlagShown f a) : flagLines f.name f.options f.type = unlines a := by
  cases h with
  | none h => simp [flagLines, optionLines, h, unlines]
  | some h => simp [flagLines, optionLines, h, unlines, List.flatMap_map]

theorem flagShown_exist (f : Flag) : ∃ a, FlagShown f a := by
  cases h : f.options with
  | nil => exact ⟨_, .none h⟩
  | cons o os => exact ⟨_, .some h⟩

theorem flagListRes_ok {fl : List Flag} (h : ∀ f ∈ fl, typeRes d f.name = .ok (f.options, f.type)) :
    ∃ a, FlagsShown fl a ∧ flagListRes d (fl.map Flag.name) = .ok (unlines a) := by
  induction fl with
  | nil => exact ⟨[], .nil, rfl⟩
  | cons f fl ih =>
    obtain ⟨b, hb, e⟩ := ih fun g hg => h g (by simp [hg])
    obtain ⟨a, ha⟩ := flagShown_exist f
    refine ⟨a ++ b, .cons ha hb, ?_⟩
    rw [List.map_cons, flagListRes, h f (by simp), e, unlines_append, ← flagLines_unlines ha]
    rfl

theorem flagListRes_fails {pre post : List Str} {f : Str} {x : PyExc}
    (hok : ∀ g ∈ pre, ∃ p, typeRes d g = .ok p) (hf : typeRes d f = .exc x) : flagListRes d (pre ++ f :: post) = .exc x := by
  induction pre with
  | nil => rw [List.nil_append, flagListRes, hf]; rfl
  | cons g pre ih =>
    obtain ⟨p, hp⟩ := hok g (by simp)
    rw [List.cons_append, flagListRes, hp, ih fun a ha => hok a (by simp [ha])]
    rfl

/-- The message can be made if and only if the options of all flags can be read, and otherwise fails in the same way. -/
theorem flagListRes_optionsRes (fs : List Str) :
    (∃ t l, flagListRes d fs = .ok t ∧ optionsRes d fs = .ok l) ∨ (∃ e, flagListRes d fs = .exc e ∧ optionsRes d fs = .exc e) ∨
    (flagListRes d fs = .diverge ∧ optionsRes d fs = .diverge) := by
  induction fs with
  | nil => exact .inl ⟨_, _, rfl, rfl⟩
  | cons f fs ih =>
    rw [flagListRes, optionsRes]
    cases typeRes d f with
    | ok p =>
      rcases ih with ⟨t, l, h1, h2⟩ | ⟨e, h1, h2⟩ | ⟨h1, h2⟩
      · rw [h1, h2]; exact .inl ⟨_, _, rfl, rfl⟩
      · rw [h1, h2]; exact .inr (.inl ⟨_, rfl, rfl⟩)
      · rw [h1, h2]; exact .inr (.inr ⟨rfl, rfl⟩)
    | exc e => exact .inr (.inl ⟨_, rfl, rfl⟩)
    | diverge => exact .inr (.inr ⟨rfl, rfl⟩)

theorem oneLine_append {a b : Str} (ha : OneLine a) (hb : OneLine b) : OneLine (a ++ b) := by
  intro c hc
  rcases List.mem_append.1 hc with h | h
  · exact ha c h
  · exact hb c h

theorem oneLine_of_isBreak {s : Str} (h : s.all (fun c => !isBreak c) = true) : OneLine s := by
  intro c hc hb
  have := List.all_eq_true.1 h c hc
  rw [(isBreak_iff c).2 hb] at this
  cases this

theorem flagsShown_oneLine {fl : List Flag} {a : List Str} (h : FlagsShown fl a)
    (ht : ∀ f ∈ fl, f.type = py!"SELECT_ONE" ∨ f.type = py!"SELECT_MANY") (ho : ∀ f ∈ fl, FlagOnLines f) : ∀ l ∈ a, OneLine l := by
  induction h with
  | nil => simp
  | @cons f fl a b hf _ ih =>
    intro l hl
    rcases List.mem_append.1 hl with hl | hl
    · have ⟨hn, hopt⟩ := ho f (by simp)
      have hty : OneLine f.type := by
        rcases ht f (by simp) with h | h <;> rw [h] <;> exact oneLine_of_isBreak (by decide)
      cases hf with
      | none h =>
        rcases List.mem_cons.1 hl with rfl | hl
        · exact oneLine_append (oneLine_of_isBreak (by decide)) hn
        · rw [List.mem_singleton.1 hl]
          exact oneLine_append (oneLine_append (oneLine_of_isBreak (by decide)) hty) (oneLine_of_isBreak (by decide))
      | @some o os h =>
        rw [h] at hopt
        rcases List.mem_append.1 hl with hl | hl
        · rcases List.mem_cons.1 hl with rfl | hl
          · exact oneLine_append (oneLine_of_isBreak (by decide)) hn
          · rcases List.mem_cons.1 hl with rfl | hl
            · exact oneLine_append (oneLine_append (oneLine_of_isBreak (by decide)) hty) (oneLine_of_isBreak (by decide))
            · rw [List.mem_singleton.1 hl]
              exact oneLine_append (oneLine_append (oneLine_of_isBreak (by decide)) (hopt o (by simp))) (oneLine_of_isBreak (by decide))
        · obtain ⟨y, hy, rfl⟩ := List.mem_map.1 hl
          exact oneLine_append (oneLine_of_isBreak (by decide)) (hopt y (by simp [hy]))
    · exact ih (fun g hg => ht g (by simp [hg])) (fun g hg => ho g (by simp [hg])) l hl

theorem flagsShown_unique {fl : List Flag} {a b : List Str} (h : FlagsShown fl a) (h' : FlagsShown fl b) : a = b := by
  induction h generalizing b with
  | nil => cases h'; rfl
  | cons h1 _ ih =>
    cases h' with
    | cons h2 h3 =>
      rw [ih h3]
      congr 1
      cases h1 with
      | none e => cases h2 with
        | none _ => rfl
        | some e' => rw [e] at e'; cases e'
      | some e => cases h2 with
        | none e' => rw [e] at e'; cases e'
        | some e' => rw [e] at e'; cases e'; rfl

/-! ### Environments -/

theorem perm_insertSorted (x : Str) (l : List Str) : List.Perm (insertSorted x l) (x :: l) := by
  induction l with
  | nil => exact .refl _
  | cons y l ih =>
    rw [insertSorted]
    split
    · exact .refl _
    · exact (List.Perm.cons y ih).trans (.swap x y l)

theorem perm_sortStrs (l : List Str) : List.Perm (sortStrs l) l := by
  induction l with
  | nil => exact .refl _
  | cons x l ih => exact (perm_insertSorted x _).trans (.cons x ih)

theorem perm_insertByLen (x : Str) (l : List Str) : List.Perm (insertByLen x l) (x :: l) := by
  induction l with
  | nil => exact .refl _
  | cons y l ih =>
    rw [insertByLen]
    split
    · exact .refl _
    · exact (List.Perm.cons y ih).trans (.swap x y l)

theorem perm_sortByLen (l : List Str) : List.Perm (sortByLen l) l := by
  induction l with
  | nil => exact .refl _
  | cons x l ih => exact (perm_insertByLen x _).trans (.cons x ih)

theorem inOrder_sortStrs (l : List Str) : InOrder l (sortStrs l) := ⟨perm_sortStrs l, sorted_sortStrs l⟩

theorem inOrder_unique {l a b : List Str} (h : InOrder l a) (h' : InOrder l b) : a = b :=
  List.Perm.eq_of_pairwise (le := Before) (fun _ _ _ _ h1 h2 => before_antisymm h1 h2) h.2 h'.2 (h.1.trans h'.1.symm)

theorem envLines_unlines {e : Str} {a : List Str} (h : EnvShown d e a) : envLines e (sortStrs (valuesIn d e)) = unlines a := by
  cases h with
  | none h => rw [h]; simp [envLines, unlines, sortStrs]
  | @some al hne h =>
    rw [inOrder_unique (inOrder_sortStrs _) h]
    have : 0 < al.length := by
      rw [h.1.length_eq]; exact List.length_pos_iff.2 hne
    rw [envLines, if_pos this]
    simp [unlines, List.flatMap_map]

theorem envShown_exist (d : Options) (e : Str) : ∃ a, EnvShown d e a := by
  by_cases h : valuesIn d e = []
  · exact ⟨_, .none h⟩
  · exact ⟨_, .some h (inOrder_sortStrs _)⟩

theorem envsLoop_ok {s : Str} (h : edGetItem E n s o1 = (.ok d, o1)) {es : List Str}
    (hk : ∀ k ∈ es, k ∈ Dict.keys d ∧ Acceptable d (valuesIn d k)) :
    ∃ a, EnvsShown d es a ∧ envsLoop E n s es o1 = (.ok (unlines a), o1) := by
  induction es with
  | nil => exact ⟨[], .nil, rfl⟩
  | cons e es ih =>
    obtain ⟨b, hb, eb⟩ := ih fun k hx => hk k (by simp [hx])
    obtain ⟨a, ha⟩ := envShown_exist d e
    refine ⟨a ++ b, .cons ha hb, ?_⟩
    have hv := getValues_read h e
    rw [valuesResult_ok (hk e (by simp)).1 (hk e (by simp)).2] at hv
    rw [envsLoop, M.bind_def, hv]
    dsimp only
    rw [M.bind_def, eb, unlines_append, ← envLines_unlines ha]
    rfl

theorem envsShown_unique {es a b : List Str} (h : EnvsShown d es a) (h' : EnvsShown d es b) : a = b := by
  induction h generalizing b with
  | nil => cases h'; rfl
  | cons h1 _ ih =>
    cases h' with
    | cons h2 h3 =>
      rw [ih h3]
      congr 1
      cases h1 with
      | none e => cases h2 with
        | none _ => rfl
        | some e' => exact absurd e e'
      | some e i => cases h2 with
        | none e' => exact absurd e' e
        | some _ i' => rw [inOrder_unique i i']

theorem envsShown_oneLine {es a : List Str} (h : EnvsShown d es a) (hn : ∀ e ∈ es, OneLine e)
    (ho : ∀ e ∈ es, ∀ v ∈ valuesIn d e, OneLine v) : ∀ l ∈ a, OneLine l := by
  induction h with
  | nil => simp
  | @cons e es a b hf _ ih =>
    intro l hl
    rcases List.mem_append.1 hl with hl | hl
    · have h1 : OneLine (py!"  - " ++ e) := oneLine_append (oneLine_of_isBreak (by decide)) (hn e (by simp))
      cases hf with
      | none h => rw [List.mem_singleton.1 hl]; exact h1
      | @some al h i =>
        rcases List.mem_append.1 hl with hl | hl
        · rcases List.mem_cons.1 hl with rfl | hl
          · exact h1
          · rw [List.mem_singleton.1 hl]; exact oneLine_of_isBreak (by decide)
        · obtain ⟨y, hy, rfl⟩ := List.mem_map.1 hl
          exact oneLine_append (oneLine_of_isBreak (by decide)) (ho e (by simp) y (i.1.mem_iff.1 hy))
    · exact ih (fun g hg => hn g (by simp [hg])) (fun g hg => ho g (by simp [hg])) l hl

end
end CPE.KW
