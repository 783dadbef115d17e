import Verif.Spec.BashScript
import Verif.Proofs.Script
/-
Generated Bash scripts (wip/setenvironment).
-/
namespace CPE.SetEnv
open CPE.Spec CPE.SetEnv.Spec

namespace Bash

/-! ### Texts -/

instance (c : Char) : Decidable (WordChar c) := by unfold WordChar; infer_instance

theorem isIdent_iff (n : Str) : isIdent n = true ↔ Identifier n := by
  cases n with
  | nil =>
    refine ⟨fun h => (by cases h), fun h => ?_⟩
    obtain ⟨⟨c, t, h, _⟩, _⟩ := h
    cases h
  | cons c t =>
    have hd : (decide ('0' ≤ c) && decide (c ≤ '9')) = c.isDigit := by
      unfold Char.isDigit
      rfl
    unfold isIdent
    simp only [Bool.and_eq_true, Bool.not_eq_true', List.all_eq_true]
    constructor
    · rintro ⟨⟨h1, h2⟩, h3⟩
      refine ⟨⟨c, t, rfl, ?_⟩, ?_⟩
      · rw [← hd]; exact h2
      · intro d hm
        rcases List.mem_cons.1 hm with rfl | hm
        · exact (isAsciiWord_iff _).1 h1
        · exact (isAsciiWord_iff _).1 (h3 d hm)
    · rintro ⟨⟨d, r, h, h1⟩, h2⟩
      cases h
      refine ⟨⟨(isAsciiWord_iff _).2 (h2 _ (.head _)), ?_⟩, fun d hm => (isAsciiWord_iff _).2 (h2 d (.tail _ hm))⟩
      rw [hd]; exact h1

theorem expandGo_skip (env : Environ) (k : Nat) (s : Str) : expandGo env k s = expandGo env 0 (s.drop k) := by
  induction k generalizing s with
  | zero => rfl
  | succ k ih =>
    cases s with
    | nil => rfl
    | cons c s => exact ih s

theorem readRef_braced {x s : Str} (h : Identifier x) :
    readRef ('{' :: x ++ '}' :: s) = some (some (x, x.length + 2)) := by
  have hx : ∀ c ∈ x, (c ≠ '}') := by
    intro c hc e
    subst e
    exact absurd (h.2 _ hc) (by decide)
  have ht : (x ++ '}' :: s).takeWhile (· ≠ '}') = x := by
    refine takeWhile_append_stop (fun c hc => by simp [hx c hc]) (fun c t e => ?_)
    cases e
    simp
  show readRef ('{' :: (x ++ '}' :: s)) = _
  unfold readRef
  dsimp only
  rw [if_pos rfl, ht, if_pos ⟨by simp, (isIdent_iff x).2 h⟩]

theorem wordChar_not_dollar {c : Char} (h : WordChar c) (hd : c.isDigit = false) : dollarChar c = false := by
  have hd' : (decide ('0' ≤ c) && decide (c ≤ '9')) = false := hd
  unfold dollarChar
  rw [hd']
  have key : ∀ d : Char, ¬ WordChar d → (c == d) = false := by
    intro d hn
    rw [beq_eq_false_iff_ne]
    rintro rfl
    exact hn h
  rw [key _ (by decide), key _ (by decide), key _ (by decide), key _ (by decide), key _ (by decide), key _ (by decide),
    key _ (by decide), key _ (by decide), key _ (by decide), key _ (by decide), key _ (by decide), key _ (by decide)]
  rfl

theorem readRef_bare {x s : Str} (h : Identifier x) (hs : ∀ c t, s = c :: t → ¬ WordChar c) :
    readRef (x ++ s) = some (some (x, x.length)) := by
  obtain ⟨⟨c, t, rfl, hd⟩, hw⟩ := h
  have hc : WordChar c := hw c (.head _)
  have ht : ((c :: t) ++ s).takeWhile isAsciiWord = c :: t :=
    takeWhile_append_stop (fun d hm => (isAsciiWord_iff _).2 (hw d hm)) (fun d r e => by
      rw [← Bool.not_eq_true, isAsciiWord_iff]
      exact hs d r e)
  show readRef (c :: (t ++ s)) = _
  unfold readRef
  dsimp only
  rw [if_neg (by rintro rfl; exact absurd hc (by decide)), if_neg (by rw [wordChar_not_dollar hc hd]; simp)]
  rw [show c :: (t ++ s) = (c :: t) ++ s from rfl, ht, if_neg (by simp)]

theorem readRef_lone {s : Str} (h : ∀ c r, s = c :: r → AfterDollar c) : readRef s = some none := by
  cases s with
  | nil => rfl
  | cons c s =>
    obtain ⟨h1, h2⟩ := h c s rfl
    have hd : (decide ('0' ≤ c) && decide (c ≤ '9')) = false := by
      have : c.isDigit = false := by
        cases hd : c.isDigit with
        | false => rfl
        | true => exact absurd (.inl (by unfold Char.isAlphanum; rw [hd, Bool.or_true])) h1
      exact this
    simp only [List.mem_cons, List.not_mem_nil, or_false, not_or] at h2
    obtain ⟨g1, g2, g3, g4, g5, g6, g7, g8, g9, g10, g12, g11⟩ := h2
    unfold readRef
    dsimp only
    rw [if_neg g11]
    have hw : isAsciiWord c = false := by rw [← Bool.not_eq_true, isAsciiWord_iff]; exact h1
    have hdc : dollarChar c = false := by
      unfold dollarChar
      rw [hd]
      simp [*]
    rw [hdc]
    simp [hw]

theorem identifier_no_brace {x : Str} (h : Identifier x) : '}' ∉ x :=
  fun hc => absurd (h.2 _ hc) (by decide)

theorem identifier_ne_nil {x : Str} (h : Identifier x) : x ≠ [] := by
  obtain ⟨⟨c, t, rfl, _⟩, _⟩ := h
  simp

/-- A text that means the same in both languages: what Bash makes of it. -/
theorem expandGo_of_means {env : Environ} {s t : Str} (h : Means env s t) : expandGo env 0 s = some t := by
  induction h with
  | nil => rfl
  | @plain c s t hc hb _ ih =>
    unfold expandGo
    rw [if_neg hc, if_neg (by rintro rfl; exact hb (by decide)), ih]
    rfl
  | @braced x v s t hx hv _ ih =>
    have e : py!"${" ++ x ++ py!"}" ++ s = '$' :: ('{' :: x ++ '}' :: s) := by simp
    rw [e]
    unfold expandGo
    rw [if_pos rfl, readRef_braced hx]
    dsimp only
    rw [hv, expandGo_skip, show ('{' :: x ++ '}' :: s).drop (x.length + 2) = s by simp, ih]
    rfl
  | @bare x v s t hx hs hv _ ih =>
    have e : py!"$" ++ x ++ s = '$' :: (x ++ s) := by simp
    rw [e]
    unfold expandGo
    rw [if_pos rfl, readRef_bare hx hs]
    dsimp only
    rw [hv, expandGo_skip, List.drop_left, ih]
    rfl
  | @lone s t hs _ ih =>
    unfold expandGo
    rw [if_pos rfl, readRef_lone hs]
    dsimp only
    rw [ih]
    rfl

/-- What Python makes of it. -/
theorem expands_of_means {env : Environ} {s t : Str} (h : Means env s t) : Expands env s t := by
  induction h with
  | nil => exact .nil
  | plain hc _ _ ih => exact .plain hc ih
  | @braced x v s t hx hv _ ih =>
    have := Expands.braced (env := env) (identifier_no_brace hx) ih
    rw [hv] at this
    exact this
  | @bare x v s t hx hs hv _ ih =>
    have := Expands.bare (env := env) (identifier_ne_nil hx) hx.2 hs ih
    rw [hv] at this
    exact this
  | @lone s t hs _ ih =>
    refine .lone ?_ ih
    rintro (⟨c, r, rfl, hc⟩ | ⟨r, rfl, _⟩)
    · exact (hs c r rfl).1 hc
    · exact (hs _ r rfl).2 (by decide)

theorem means_chars {env : Environ} {s t : Str} (h : Means env s t) : ∀ c ∈ s, c ∉ badInQuotes := by
  have hw : ∀ {c : Char}, WordChar c → c ∉ badInQuotes := by
    intro c hc hb
    simp only [badInQuotes, List.mem_cons, List.not_mem_nil, or_false] at hb
    rcases hb with rfl | rfl | rfl | rfl | rfl | rfl <;> exact absurd hc (by decide)
  induction h with
  | nil => simp
  | @plain c s t _ hc _ ih =>
    intro d hd
    rcases List.mem_cons.1 hd with rfl | hd
    · exact hc
    · exact ih d hd
  | @braced x v s t hx _ _ ih =>
    intro d hd
    rcases List.mem_append.1 hd with hd | hd
    · rcases List.mem_append.1 hd with hd | hd
      · rcases List.mem_append.1 hd with hd | hd
        · simp at hd; rcases hd with rfl | rfl <;> decide
        · exact hw (hx.2 d hd)
      · simp at hd; subst hd; decide
    · exact ih d hd
  | @bare x v s t hx _ _ _ ih =>
    intro d hd
    rcases List.mem_append.1 hd with hd | hd
    · rcases List.mem_append.1 hd with hd | hd
      · simp at hd; subst hd; decide
      · exact hw (hx.2 d hd)
    · exact ih d hd
  | lone _ _ ih =>
    intro d hd
    rcases List.mem_cons.1 hd with rfl | hd
    · decide
    · exact ih d hd

/-! ### Reading commands -/

/-- How a word is written. -/
def Word.render (w : Word) : Str := if w.quoted = true then py!"\"" ++ w.text ++ py!"\"" else w.text

/-- The closing quote after the text `w` is the one that ends the word. -/
def Closed (w : Str) : Prop :=
  ∀ (done : List Word) (cur rest : Str),
    readWords (.quot done cur) (w ++ '"' :: rest) = readWords (.after (done ++ [⟨true, cur ++ w⟩])) rest

/-- Words that are read back. -/
def Word.Ok (w : Word) : Prop :=
  if w.quoted = true then Closed w.text else w.text ≠ [] ∧ ∀ c ∈ w.text, bareChar c = true

theorem readWords_bare (done : List Word) (cur w rest : Str) (h : ∀ c ∈ w, bareChar c = true) :
    readWords (.bare done cur) (w ++ rest) = readWords (.bare done (cur ++ w)) rest := by
  induction w generalizing cur with
  | nil => simp
  | cons c w ih =>
    have hc := h c (.head _)
    have hs : c ≠ ' ' := by rintro rfl; exact absurd hc (by decide)
    show readWords (.bare done cur) (c :: (w ++ rest)) = _
    rw [readWords, if_neg hs, if_pos hc, ih _ fun d hd => h d (.tail _ hd)]
    simp

theorem readWords_quot {w : Str} (h : ∀ c ∈ w, c ∉ badInQuotes) : Closed w := by
  intro done cur rest
  induction w generalizing cur with
  | nil => rw [List.nil_append, readWords, if_pos rfl, List.append_nil]
  | cons c w ih =>
    have hc := h c (.head _)
    simp only [badInQuotes, List.mem_cons, List.not_mem_nil, or_false, not_or] at hc
    show readWords (.quot done cur) (c :: (w ++ '"' :: rest)) = _
    rw [readWords, if_neg hc.1, if_neg hc.2.1, if_neg (by simp only [not_or]; exact ⟨hc.2.2.1, hc.2.2.2.2.2⟩),
      ih (fun d hd => h d (.tail _ hd))]
    simp

theorem readWords_render (done : List Word) {w : Word} (hw : w.Ok) (rest : Str) :
    readWords (.gap done) (w.render ++ ' ' :: rest) = readWords (.gap (done ++ [w])) rest ∧
    readWords (.gap done) w.render = some (done ++ [w]) := by
  obtain ⟨q, t⟩ := w
  cases q with
  | true =>
    have hw : Closed t := hw
    constructor
    · show readWords (.gap done) ('"' :: (t ++ ['"'] ++ ' ' :: rest)) = _
      rw [readWords, if_neg (by decide), if_pos rfl, List.append_assoc, List.singleton_append,
        hw, readWords, if_pos rfl, List.nil_append]
    · show readWords (.gap done) ('"' :: (t ++ ['"'])) = _
      rw [readWords, if_neg (by decide), if_pos rfl, hw, readWords, List.nil_append]
  | false =>
    obtain ⟨hne, hb⟩ : t ≠ [] ∧ ∀ c ∈ t, bareChar c = true := hw
    cases t with
    | nil => exact absurd rfl hne
    | cons c t =>
      have hc := hb c (.head _)
      have h1 : c ≠ ' ' := by rintro rfl; exact absurd hc (by decide)
      have h2 : c ≠ '"' := by rintro rfl; exact absurd hc (by decide)
      have hb' : ∀ d ∈ t, bareChar d = true := fun d hd => hb d (.tail _ hd)
      constructor
      · show readWords (.gap done) (c :: (t ++ ' ' :: rest)) = _
        rw [readWords, if_neg h1, if_neg h2, if_pos hc, readWords_bare _ _ _ _ hb', readWords, if_pos rfl]
        rfl
      · show readWords (.gap done) (c :: t) = _
        rw [readWords, if_neg h1, if_neg h2, if_pos hc]
        have := readWords_bare done [c] t [] hb'
        rw [List.append_nil] at this
        rw [this, readWords]
        rfl

theorem readWords_join (done : List Word) {ws : List Word} (h : ∀ w ∈ ws, w.Ok) :
    readWords (.gap done) (joinStr py!" " (ws.map Word.render)) = some (done ++ ws) := by
  induction ws generalizing done with
  | nil => simp [joinStr, readWords]
  | cons w ws ih =>
    have hw := h w (.head _)
    have ih := fun d => ih d fun x hx => h x (.tail _ hx)
    cases ws with
    | nil => exact (readWords_render done hw []).2
    | cons x ws =>
      rw [List.map_cons, List.map_cons, joinStr_cons_cons, List.append_assoc]
      rw [show ∀ t : Str, py!" " ++ t = ' ' :: t from fun _ => rfl, (readWords_render done hw _).1, ← List.map_cons,
        ih]
      simp

/-! ### Functions -/

/-- Variable `n` is not a local variable. -/
def Outside (n : Str) (fs : List (Dict Str Str)) : Prop := ∀ f ∈ fs, Dict.get? f n = none

theorem getIn_outside {n : Str} {fs : List (Dict Str Str)} (h : Outside n fs) (env : Environ) :
    getIn fs env n = Dict.get? env n := by
  induction fs with
  | nil => rfl
  | cons f fs ih =>
    unfold getIn
    rw [h f (.head _)]
    exact ih fun g hg => h g (.tail _ hg)

theorem changeIn_outside {n : Str} {fs : List (Dict Str Str)} (h : Outside n fs) (g : Dict Str Str → Dict Str Str)
    (env : Environ) : changeIn g n fs env = (fs, g env) := by
  induction fs with
  | nil => rfl
  | cons f fs ih =>
    unfold changeIn
    rw [if_neg (by rw [(mem_eq_get _ _).2 (h f (.head _))]; simp), ih fun g hg => h g (.tail _ hg)]

/-- `m` does `r` to the environment, whatever local variables there are, if `n` is not one of them. -/
def Acts (n : Str) (m : M Shell Unit) (r : Environ → Out Unit × Environ) : Prop :=
  ∀ sh : Shell, Outside n sh.frames → (m sh).1 = (r sh.environ).1 ∧ (m sh).2.environ = (r sh.environ).2

variable {n : Str}

theorem Acts.pure : Acts n (pure ()) fun env => (.ok (), env) := fun _ _ => ⟨rfl, rfl⟩

theorem Acts.raise (e : PyExc) : Acts n (M.raise e) fun env => (.exc e, env) := fun _ _ => ⟨rfl, rfl⟩

theorem Acts.call {m : M Shell Unit} {r : Environ → Out Unit × Environ} (h : Acts n m r) : Acts n (call m) r := by
  intro sh hs
  exact h { sh with frames := [] :: sh.frames } (fun f hf => by
    rcases List.mem_cons.1 hf with rfl | hf
    · rfl
    · exact hs f hf)

theorem Acts.local {x v : Str} {m : M Shell Unit} {r : Environ → Out Unit × Environ} (hx : n ≠ x) (h : Acts n m r) :
    Acts n (local_ x v >>= fun _ => m) r := by
  intro sh hs
  obtain ⟨fs, env⟩ := sh
  cases fs with
  | nil => exact h _ hs
  | cons f fs =>
    refine h { frames := Dict.set f x v :: fs, environ := env } (fun g hg => ?_)
    rcases List.mem_cons.1 hg with rfl | hg
    · rw [Dict.get?_set_ne _ _ hx]
      exact hs f (.head _)
    · exact hs g (.tail _ hg)

theorem Acts.need {x : Str} {m : M Shell Unit} {r : Environ → Out Unit × Environ} (hx : x ≠ []) (h : Acts n m r) :
    Acts n (need x >>= fun _ => m) r := by
  unfold Bash.need
  rw [if_neg hx]
  exact h

theorem Acts.need_nil {m : M Shell Unit} :
    Acts n (Bash.need [] >>= fun _ => m) fun env => (.exc (.user py!"exit"), env) := fun _ _ => ⟨rfl, rfl⟩

theorem Acts.lookup {f : Option Str → M Shell Unit} {r : Option Str → Environ → Out Unit × Environ}
    (h : ∀ o, Acts n (f o) (r o)) : Acts n (lookup n >>= f) fun env => r (Dict.get? env n) env := by
  intro sh hs
  have : Bash.lookup n sh = (.ok (Dict.get? sh.environ n), sh) := by
    unfold Bash.lookup
    rw [M.read_bind, getIn_outside hs]
    rfl
  rw [M.bind_def, this]
  exact h _ sh hs

theorem Acts.export (v : Str) : Acts n (export_ n v) fun env => (.ok (), Dict.set env n v) := by
  intro sh hs
  refine ⟨rfl, ?_⟩
  show (changeIn (fun d => Dict.set d n v) n sh.frames sh.environ).2 = _
  rw [changeIn_outside hs]

theorem Acts.unset : Acts n (unset n) fun env => (.ok (), dictDel env n) := by
  intro sh hs
  refine ⟨rfl, ?_⟩
  show (changeIn (fun d => dictDel d n) n sh.frames sh.environ).2 = _
  rw [changeIn_outside hs]

theorem Acts.ite {c : Prop} [Decidable c] {m m' : M Shell Unit} {r r' : Environ → Out Unit × Environ}
    (h : Acts n m r) (h' : Acts n m' r') : Acts n (if c then m else m') fun env => if c then r env else r' env := by
  split
  · exact h
  · exact h'

theorem Acts.congr {m : M Shell Unit} {r r' : Environ → Out Unit × Environ} (h : Acts n m r)
    (e : ∀ env, r env = r' env) : Acts n m r' := fun sh hs => by rw [← e]; exact h sh hs

theorem varName_ne (hn : VarName n) {x : Str} (hx : x ∈ helperNames) : n ≠ x := by
  rintro rfl
  exact hn.2 hx

variable (hn : VarName n)
include hn

theorem need_name : n ≠ [] := identifier_ne_nil hn.1

theorem acts_set (x : Str) : Acts n (envvarSetOrCreate n x) fun env => (.ok (), Dict.set env n x) :=
  .call (.need (need_name hn) (.export x))

omit hn in
theorem acts_append (x : Str) : Acts n (envvarAppend n x) fun env =>
    (.ok (), Dict.set env n (match Dict.get? env n with | none => x | some v => v ++ py!":" ++ x)) := by
  refine .call ((Acts.lookup (r := fun o env =>
    (.ok (), Dict.set env n (match o with | none => x | some v => v ++ py!":" ++ x))) fun o => ?_))
  cases o with
  | none => exact .export x
  | some v => exact .export _

omit hn in
theorem acts_prepend (x : Str) : Acts n (envvarPrepend n x) fun env =>
    (.ok (), Dict.set env n (match Dict.get? env n with | none => x | some v => x ++ py!":" ++ v)) := by
  refine .call ((Acts.lookup (r := fun o env =>
    (.ok (), Dict.set env n (match o with | none => x | some v => x ++ py!":" ++ v))) fun o => ?_))
  cases o with
  | none => exact .export x
  | some v => exact .export _

theorem acts_assert (x : Str) : Acts n (envvarAssertNotEmpty n x) fun env =>
    if Dict.get? env n = none ∨ Dict.get? env n = some [] then (.exc (.user py!"exit"), env) else (.ok (), env) :=
  .call (.local (varName_ne hn (by decide)) (.local (varName_ne hn (by decide))
    (.lookup (r := fun o env => if o = none ∨ o = some [] then (.exc (.user py!"exit"), env) else (.ok (), env))
      fun _ => .ite (.raise _) .pure)))

theorem acts_setIfEmpty (x : Str) : Acts n (envvarSetIfEmpty n x) fun env =>
    if Dict.get? env n = none ∨ Dict.get? env n = some [] then (.ok (), Dict.set env n x) else (.ok (), env) :=
  .call (.need (need_name hn) (.local (varName_ne hn (by decide)) (.local (varName_ne hn (by decide))
    (.lookup (r := fun o env => if o = none ∨ o = some [] then (.ok (), Dict.set env n x) else (.ok (), env))
      fun _ => .ite (.export x) .pure))))

theorem acts_removeSubstr {x : Str} (hx : x ≠ []) : Acts n (envvarRemoveSubstr n x) fun env =>
    if '#' ∈ x then (.ok (), env)
    else if unquotedSafe ((Dict.get? env n).getD []) = true ∧ ((Dict.get? env n).getD []).head? ≠ some '-' ∧ sedSafe x = true
    then (.ok (), Dict.set env n (replaceGo x [] 0 ((Dict.get? env n).getD [])))
    else (.exc (.user py!"NotModelled"), env) :=
  .call (.need (need_name hn) (.local (varName_ne hn (by decide)) (.need hx (.local (varName_ne hn (by decide))
    (.ite .pure (.lookup (r := fun o env =>
      if unquotedSafe (o.getD []) = true ∧ (o.getD []).head? ≠ some '-' ∧ sedSafe x = true
      then (.ok (), Dict.set env n (replaceGo x [] 0 (o.getD [])))
      else (.exc (.user py!"NotModelled"), env)) fun _ => .ite (.export _) (.raise _)))))))

/-- The text that the function for path entries makes. -/
def entryText (x v : Str) : Str :=
  dropSuffix py!":1" (dropPrefix py!":1" (replaceGo (py!":" ++ x ++ py!":") py!":" 0 (py!":" ++ v ++ py!":")))

theorem acts_removeEntry {x : Str} (hx : x ≠ []) : Acts n (envvarRemovePathEntry n x) fun env =>
    if patternSafe x = true then
      if unquotedSafe (entryText x ((Dict.get? env n).getD [])) = true then
        (.ok (), Dict.set env n (entryText x ((Dict.get? env n).getD [])))
      else (.exc (.user py!"NotModelled"), env)
    else (.exc (.user py!"NotModelled"), env) :=
  .call (.need (need_name hn) (.local (varName_ne hn (by decide)) (.need hx (.local (varName_ne hn (by decide))
    (.lookup (r := fun o env =>
      if patternSafe x = true then
        if unquotedSafe (entryText x (o.getD [])) = true then
          (.ok (), Dict.set env n (entryText x (o.getD [])))
        else (.exc (.user py!"NotModelled"), env)
      else (.exc (.user py!"NotModelled"), env)) fun _ =>
      .local (varName_ne hn (by decide)) (.ite (.local (varName_ne hn (by decide))
        (.ite (.export _) (.raise _))) (.raise _)))))))

/-- The entry function, up to the choice of the operation. -/
theorem acts_op {tools : Tools} {op : Str} (hop : op ≠ []) (args : List Str) {m : M Shell Unit}
    {r : Environ → Out Unit × Environ} (h : Acts n m r)
    (e : ∀ x, (args[0]?).getD [] = x →
      (if op = py!"set" then envvarSetOrCreate n x
        else if op = py!"unset" then Bash.unset n
        else if op = py!"append" then do
          Bash.need x
          envvarAppend n x
        else if op = py!"prepend" then do
          Bash.need x
          envvarPrepend n x
        else if op = py!"remove_substr" then do
          Bash.need x
          envvarRemoveSubstr n x
        else if op = py!"remove_path_entry" then do
          Bash.need x
          envvarRemovePathEntry n x
        else if op = py!"find_in_path" then do
          Bash.need x
          if unquotedSafe x = true ∧ x.head? ≠ some '-' then do
            let sh ← M.read
            envvarSetOrCreate n (dropLineEnds ((tools.which sh.environ x).getD []))
          else notModelled
        else if op = py!"assert_not_empty" then envvarAssertNotEmpty n x
        else if op = py!"set_if_empty" then envvarSetIfEmpty n x
        else Pure.pure ()) = m) : Acts n (envvarOp tools (op :: n :: args)) r := by
  unfold envvarOp
  refine .call (.need hop (.local (varName_ne hn (by decide)) (.need (need_name hn) (.local (varName_ne hn (by decide))
    (.local (varName_ne hn (by decide)) ?_)))))
  rw [if_neg (by rw [show ((op :: n :: args)[1]?).getD [] = n from rfl, (isIdent_iff n).2 hn.1]; simp)]
  have := e _ rfl
  rw [← this] at h
  exact h

omit hn

/-! ### Commands -/

theorem means_self {s : Str} (h : ∀ c ∈ s, WordChar c) (env : Environ) : Means env s s := by
  induction s with
  | nil => exact .nil
  | cons c s ih =>
    have hc := h c (.head _)
    refine .plain (by rintro rfl; exact absurd hc (by decide)) (fun hb => ?_) (ih fun d hd => h d (.tail _ hd))
    simp only [badInQuotes, List.mem_cons, List.not_mem_nil, or_false] at hb
    rcases hb with rfl | rfl | rfl | rfl | rfl | rfl <;> exact absurd hc (by decide)

theorem opName_bare {op : Str} (h : op ∈ opNames) : op ≠ [] ∧ ∀ c ∈ op, bareChar c = true := by
  revert op
  decide +kernel

/-- A text in double quotes that Bash reads as `x`. -/
def ReadsAs (env : Environ) (w x : Str) : Prop := expandGo env 0 w = some x ∧ Closed w

theorem readsAs_of_means {env : Environ} {w x : Str} (h : Means env w x) : ReadsAs env w x :=
  ⟨expandGo_of_means h, readWords_quot (means_chars h)⟩

/-- The command of an action on a variable calls `envvar_op`. -/
theorem exec_call {tools : Tools} {env : Environ} {op n : Str} (hop : op ∈ opNames) (hn : ∀ c ∈ n, WordChar c)
    {ws xs : List Str} (hws : ws.length = xs.length) (hm : ∀ p ∈ ws.zip xs, ReadsAs env p.1 p.2) :
    exec tools (joinStr py!" " (py!"envvar_op" :: op :: (n :: ws).map fun w => py!"\"" ++ w ++ py!"\"")) env =
      ((envvarOp tools (op :: n :: xs) { frames := [], environ := env }).1,
        (envvarOp tools (op :: n :: xs) { frames := [], environ := env }).2.environ) := by
  have hn' := means_self hn env
  have hq : ∀ w ∈ ws, Closed w := by
    induction ws generalizing xs with
    | nil => simp
    | cons w ws ih =>
      cases xs with
      | nil => simp at hws
      | cons x xs =>
        intro u hu
        rcases List.mem_cons.1 hu with rfl | hu
        · exact (hm (u, x) (.head _)).2
        · exact ih (by simpa using hws) (fun p hp => hm p (.tail _ hp)) u hu
  have hrd : readWords (.gap []) (joinStr py!" " (py!"envvar_op" :: op :: (n :: ws).map fun w => py!"\"" ++ w ++ py!"\"")) =
      some (⟨false, py!"envvar_op"⟩ :: ⟨false, op⟩ :: (n :: ws).map fun w => ⟨true, w⟩) := by
    have := readWords_join [] (ws := ⟨false, py!"envvar_op"⟩ :: ⟨false, op⟩ :: (n :: ws).map fun w => ⟨true, w⟩) (by
      intro w hw
      rcases List.mem_cons.1 hw with rfl | hw
      · show _ ≠ [] ∧ _; decide +kernel
      · rcases List.mem_cons.1 hw with rfl | hw
        · exact opName_bare hop
        · obtain ⟨u, hu, rfl⟩ := List.mem_map.1 hw
          rcases List.mem_cons.1 hu with rfl | hu
          · exact readWords_quot (means_chars hn')
          · exact hq u hu)
    rw [List.nil_append] at this
    rw [← this]
    congr 2
    simp [Word.render]
  have hex : expandWords env (⟨false, py!"envvar_op"⟩ :: ⟨false, op⟩ :: (n :: ws).map fun w => ⟨true, w⟩) =
      some (py!"envvar_op" :: op :: n :: xs) := by
    have hl : expandWords env (ws.map fun w => ⟨true, w⟩) = some xs := by
      clear hrd hq
      induction ws generalizing xs with
      | nil =>
        cases xs with
        | nil => rfl
        | cons => simp at hws
      | cons w ws ih =>
        cases xs with
        | nil => simp at hws
        | cons x xs =>
          rw [List.map_cons, expandWords, ih (by simpa using hws) (fun p hp => hm p (.tail _ hp))]
          rw [if_pos rfl, show expandGo env 0 (Word.mk true w).text = some x from (hm (w, x) (.head _)).1]
    have h1 : expandGo env 0 n = some n := expandGo_of_means hn'
    simp [expandWords, hl, h1]
  unfold exec
  rw [hrd]
  dsimp only
  rw [hex]
  dsimp only
  rw [if_pos rfl]

theorem exec_envvar {tools : Tools} {env : Environ} {op n : Str} (hop : op ∈ opNames) (hn : VarName n)
    {ws xs : List Str} (hws : ws.length = xs.length) (hm : ∀ p ∈ ws.zip xs, ReadsAs env p.1 p.2)
    {r : Environ → Out Unit × Environ} (h : Acts n (envvarOp tools (op :: n :: xs)) r) :
    exec tools (joinStr py!" " (py!"envvar_op" :: op :: (n :: ws).map fun w => py!"\"" ++ w ++ py!"\"")) env =
      r env := by
  have hact := h { frames := [], environ := env } (fun f hf => by cases hf)
  rw [exec_call hop hn.1.2 hws hm, hact.1, hact.2]

theorem bare_iff (c : Char) : bareChar c = true ↔
    WordChar c ∨ c ∈ ['-', '+', '.', ',', ':', '/', '@', '%', '='] := by
  unfold bareChar
  rw [← isAsciiWord_iff]
  simp [or_assoc]

/-- The command of a module action. -/
theorem exec_module {tools : Tools} {env : Environ} {ws : List Str}
    (hw : ∀ w ∈ ws, w ≠ [] ∧ ∀ c ∈ w, WordChar c ∨ c ∈ ['-', '+', '.', ',', ':', '/', '@', '%', '=']) :
    exec tools (joinStr py!" " (py!"module" :: ws)) env = (.ok (), tools.module ws env) := by
  have hrd : readWords (.gap []) (joinStr py!" " (py!"module" :: ws)) =
      some (⟨false, py!"module"⟩ :: ws.map fun w => ⟨false, w⟩) := by
    have := readWords_join [] (ws := ⟨false, py!"module"⟩ :: ws.map fun w => ⟨false, w⟩) (by
      intro w hu
      rcases List.mem_cons.1 hu with rfl | hu
      · show _ ≠ [] ∧ _; decide +kernel
      · obtain ⟨u, hm, rfl⟩ := List.mem_map.1 hu
        exact ⟨(hw u hm).1, fun c hc => (bare_iff c).2 ((hw u hm).2 c hc)⟩)
    rw [List.nil_append] at this
    rw [← this]
    have hr : ws.map (Word.render ∘ fun w => (⟨false, w⟩ : Word)) = ws := by
      rw [show (Word.render ∘ fun w => (⟨false, w⟩ : Word)) = id from rfl, List.map_id]
    rw [List.map_cons, List.map_map, hr]
    rfl
  have hex : ∀ ws : List Str, expandWords env (ws.map fun w => ⟨false, w⟩) = some ws := by
    intro ws
    induction ws with
    | nil => rfl
    | cons w ws ih =>
      rw [List.map_cons, expandWords, ih]
      rfl
  unfold exec
  rw [hrd]
  dsimp only
  rw [show (⟨false, py!"module"⟩ :: ws.map fun w => ⟨false, w⟩ : List Word) =
    (py!"module" :: ws).map fun w => ⟨false, w⟩ from rfl, hex]
  dsimp only
  rw [if_neg (by decide), if_pos rfl]

/-! ### Comparison with Python -/

theorem unquotedSafe_iff (s : Str) : unquotedSafe s = true ↔ Unsplit s := by
  unfold unquotedSafe Unsplit
  rw [List.all_eq_true]
  simp [and_assoc]

theorem replaceGo_nil (sub : Str) (k : Nat) (s : Str) : replaceGo sub [] k s = removeGo sub k s := by
  induction s generalizing k with
  | nil => cases k <;> rfl
  | cons c s ih =>
    cases k with
    | zero =>
      unfold replaceGo removeGo
      rw [ih, ih, List.nil_append]
    | succ k => exact ih k

theorem mem_removeGo {sub : Str} {c : Char} {k : Nat} {s : Str} (h : c ∈ removeGo sub k s) : c ∈ s := by
  induction s generalizing k with
  | nil => cases k <;> exact h
  | cons d s ih =>
    cases k with
    | zero =>
      unfold removeGo at h
      split at h
      · exact .tail _ (ih h)
      · rcases List.mem_cons.1 h with rfl | h
        · exact .head _
        · exact .tail _ (ih h)
    | succ k => exact .tail _ (ih h)

theorem means_noNul {env : Environ} (he : ∀ m v, Dict.get? env m = some v → Char.ofNat 0 ∉ v) {s t : Str}
    (h : Means env s t) : Char.ofNat 0 ∉ t := by
  induction h with
  | nil => simp
  | @plain c s t _ hc _ ih =>
    simp only [List.mem_cons, not_or]
    refine ⟨?_, ih⟩
    intro e
    rw [← e] at hc
    exact hc (by decide)
  | braced _ hv _ ih => simp only [List.mem_append, not_or]; exact ⟨he _ _ hv, ih⟩
  | bare _ _ hv _ ih => simp only [List.mem_append, not_or]; exact ⟨he _ _ hv, ih⟩
  | lone _ _ ih =>
    simp only [List.mem_cons, not_or]
    exact ⟨by decide, ih⟩

theorem dropLineEnds_id {s : Str} (h : s.getLast? ≠ some '\n') : dropLineEnds s = s := by
  unfold dropLineEnds
  rw [← List.head?_reverse] at h
  cases hr : s.reverse with
  | nil =>
    have := congrArg List.reverse hr
    rw [List.reverse_reverse] at this
    rw [this]
    rfl
  | cons c r =>
    rw [hr] at h
    have hc : (c == '\n') = false := by
      rw [beq_eq_false_iff_ne]
      rintro rfl
      exact h rfl
    rw [List.dropWhile_cons, hc]
    rw [if_neg (by simp), ← hr, List.reverse_reverse]

theorem envvarSet_ok {n v : Str} (hn : Identifier n) (hv : Char.ofNat 0 ∉ v) (env : Environ) :
    SetEnv.envvarSet n v true env = (.ok 0, Dict.set env n v) := by
  have h1 : ¬ (Char.ofNat 0 ∈ n ∨ Char.ofNat 0 ∈ v ∨ '=' ∈ n) := by
    rintro (h | h | h)
    · exact absurd (hn.2 _ h) (by decide)
    · exact hv h
    · exact absurd (hn.2 _ h) (by decide)
  unfold SetEnv.envvarSet
  rw [if_neg (by simp), M.bind_def]
  unfold putEnv
  rw [if_neg h1, if_neg (identifier_ne_nil hn)]
  rfl

theorem envvarSetIfEmpty_ok {n v : Str} (hn : Identifier n) (hv : Char.ofNat 0 ∉ v) (env : Environ) :
    SetEnv.envvarSetIfEmpty n v true env =
      (.ok 0, if Dict.get? env n = none ∨ Dict.get? env n = some [] then Dict.set env n v else env) := by
  have h1 : ¬ (Char.ofNat 0 ∈ n ∨ Char.ofNat 0 ∈ v ∨ '=' ∈ n) := by
    rintro (h | h | h)
    · exact absurd (hn.2 _ h) (by decide)
    · exact hv h
    · exact absurd (hn.2 _ h) (by decide)
  unfold SetEnv.envvarSetIfEmpty
  rw [if_neg (by simp), M.read_bind]
  split
  · rw [M.bind_def]
    unfold putEnv
    rw [if_neg h1, if_neg (identifier_ne_nil hn)]
    rfl
  · rfl

theorem expanded {env : Environ} {w x : Str} (h : Expands env w x) :
    (if w ≠ [] ∧ '$' ∈ w then expandvars env w else w) = x := by
  rw [← ((expands_iff env w x).1 h).symm]
  split
  · rfl
  · rename_i hh
    rw [expandvars_eq, expandGo_plain]
    intro hd
    exact hh ⟨List.ne_nil_of_mem hd, hd⟩

/-- Bash, reading `w` as `x`, and Python, expanding `y` to `x`, agree on an action on a variable. -/
theorem alike_read {sys : Sys} {tools : Tools} {env : Environ} {op n w x y : Str} (hop : op ∈ opNames)
    (hn : VarName n) (hr : ReadsAs env w x) (hy : Expands env y x) (hx : Char.ofNat 0 ∉ x)
    (hp : PortableOp sys tools env op n x) (he : ∀ v, Dict.get? env n = some v → Char.ofNat 0 ∉ v) :
    EndAlike (exec tools (joinStr py!" " (py!"envvar_op" :: op :: [n, w].map fun w => py!"\"" ++ w ++ py!"\"")) env)
      (SetEnv.envvarOp sys op n y true env) := by
  have hex := expanded hy
  have run : ∀ {r : Environ → Out Unit × Environ}, Acts n (envvarOp tools [op, n, x]) r →
      exec tools (joinStr py!" " (py!"envvar_op" :: op :: [n, w].map fun w => py!"\"" ++ w ++ py!"\"")) env = r env :=
    fun h => exec_envvar hop hn (ws := [w]) (xs := [x]) rfl (fun p hp => by
      rw [List.zip_cons_cons, List.zip_nil_left, List.mem_singleton] at hp; subst hp; exact hr) h
  unfold SetEnv.envvarOp
  rw [if_neg (by simp), M.read_bind]
  dsimp only
  rw [hex]
  cases hp with
  | set =>
    rw [run (acts_op hn (by decide) [x] (acts_set hn x) (by rintro _ rfl; rfl))]
    rw [if_pos rfl, M.bind_def, envvarSet_ok hn.1 hx]
    exact ⟨rfl, .inl ⟨_, _, rfl, rfl⟩⟩
  | setIfEmpty =>
    rw [if_neg (by decide), if_pos rfl, M.bind_def, envvarSetIfEmpty_ok hn.1 hx]
    rw [run (acts_op hn (by decide) [x] (acts_setIfEmpty hn x) (by rintro _ rfl; rfl))]
    dsimp only
    split
    · exact ⟨rfl, .inl ⟨_, _, rfl, rfl⟩⟩
    · exact ⟨rfl, .inl ⟨_, _, rfl, rfl⟩⟩
  | append hne =>
    rw [run (acts_op hn (by decide) [x] (.need hne (acts_append x)) (by rintro _ rfl; rfl))]
    rw [if_neg (by decide), if_neg (by decide), if_pos rfl, M.bind_def, envvarSet_ok hn.1]
    · refine ⟨?_, .inl ⟨_, _, rfl, rfl⟩⟩
      cases Dict.get? env n <;> rfl
    · cases hg : Dict.get? env n with
      | none => simpa [joinStr] using hx
      | some v => simpa [joinStr, hx] using he _ hg
  | prepend hne =>
    rw [run (acts_op hn (by decide) [x] (.need hne (acts_prepend x)) (by rintro _ rfl; rfl))]
    rw [if_neg (by decide), if_neg (by decide), if_neg (by decide), if_pos rfl, M.bind_def, envvarSet_ok hn.1]
    · refine ⟨?_, .inl ⟨_, _, rfl, rfl⟩⟩
      cases Dict.get? env n <;> rfl
    · cases hg : Dict.get? env n with
      | none => simpa [joinStr] using hx
      | some v => simpa [joinStr, hx] using he _ hg
  | assertNotEmpty =>
    rw [if_neg (by decide), if_neg (by decide), if_neg (by decide), if_neg (by decide), if_neg (by decide),
      if_neg (by decide), if_neg (by decide), if_neg (by decide), if_pos rfl]
    rw [run (acts_op hn (by decide) [x] (acts_assert hn x) (by rintro _ rfl; rfl))]
    split
    · exact ⟨rfl, .inr ⟨rfl, rfl⟩⟩
    · exact ⟨rfl, .inl ⟨_, _, rfl, rfl⟩⟩
  | @removeSubstr _ _ v hne hu hs hg huv hh =>
    have h1 : '#' ∉ x := fun h => hs _ h (by decide)
    have h2 : sedSafe x = true := by
      unfold sedSafe
      rw [(unquotedSafe_iff x).2 hu, Bool.true_and, List.all_eq_true]
      intro c hc
      have := hs c hc
      simp only [List.mem_cons, List.not_mem_nil, or_false, not_or] at this
      simp [this]
    rw [if_neg (by decide), if_neg (by decide), if_neg (by decide), if_neg (by decide), if_neg (by decide),
      if_pos rfl]
    rw [run (acts_op hn (by decide) [x] (.need hne (acts_removeSubstr hn hne)) (by rintro _ rfl; rfl)), hg]
    dsimp only [Option.getD_some]
    rw [if_neg h1, if_pos ⟨(unquotedSafe_iff v).2 huv, hh, h2⟩, M.bind_def, envvarSet_ok hn.1]
    · refine ⟨?_, .inl ⟨_, _, rfl, rfl⟩⟩
      show Dict.set env n _ = Dict.set env n _
      rw [replaceGo_nil, removeSubstr, if_neg hne]
    · unfold removeSubstr
      rw [if_neg hne]
      exact fun h => he _ hg (mem_removeGo h)
  | findInPath hne hu hh hw hp =>
    have hact : Acts n (do
        Bash.need x
        if unquotedSafe x = true ∧ x.head? ≠ some '-' then do
          let sh ← M.read
          envvarSetOrCreate n (dropLineEnds ((tools.which sh.environ x).getD []))
        else notModelled) fun e => (.ok (), Dict.set e n (dropLineEnds ((tools.which e x).getD []))) := by
      refine .need hne ?_
      rw [if_pos ⟨(unquotedSafe_iff x).2 hu, hh⟩]
      intro sh hs
      rw [M.read_bind]
      exact acts_set hn _ sh hs
    rw [run (acts_op hn (by decide) [x] hact (by rintro _ rfl; rfl))]
    rw [if_neg (by decide), if_neg (by decide), if_neg (by decide), if_neg (by decide), if_neg (by decide),
      if_neg (by decide), if_neg (by decide), if_pos rfl, M.bind_def, hw]
    have h3 : Char.ofNat 0 ∉ (sys.which env x).getD [] ∧ dropLineEnds ((sys.which env x).getD []) = (sys.which env x).getD [] := by
      cases hq : sys.which env x with
      | none => exact ⟨by simp, rfl⟩
      | some p => exact ⟨(hp p hq).2, dropLineEnds_id (hp p hq).1⟩
    rw [envvarSet_ok hn.1 h3.1]
    refine ⟨?_, .inl ⟨_, _, rfl, rfl⟩⟩
    show Dict.set env n _ = Dict.set env n _
    rw [h3.2]

/-- Bash and Python agree on an action on a variable. -/
theorem alike_envvar {sys : Sys} {tools : Tools} {env : Environ} {op n w x : Str} (hop : op ∈ opNames)
    (hn : VarName n) (hm : Means env w x) (hp : PortableOp sys tools env op n x)
    (he : ∀ m v, Dict.get? env m = some v → Char.ofNat 0 ∉ v) :
    EndAlike (exec tools (joinStr py!" " (py!"envvar_op" :: op :: [n, w].map fun w => py!"\"" ++ w ++ py!"\"")) env)
      (SetEnv.envvarOp sys op n w true env) :=
  alike_read hop hn (readsAs_of_means hm) (expands_of_means hm) (means_noNul he hm) hp fun v h => he n v h

theorem dictDel_none {d : Environ} {k : Str} (h : Dict.get? d k = none) : dictDel d k = d := by
  unfold dictDel
  rw [List.filter_eq_self]
  intro kv hkv
  induction d with
  | nil => cases hkv
  | cons x d ih =>
    obtain ⟨k', v⟩ := x
    unfold Dict.get? at h
    split at h
    · cases h
    · rename_i hne
      rcases List.mem_cons.1 hkv with rfl | hkv
      · simpa using hne
      · exact ih h hkv

/-- Bash and Python agree on unsetting a variable. -/
theorem alike_unset {sys : Sys} {tools : Tools} {env : Environ} {n : Str} (hn : VarName n) :
    EndAlike (exec tools (joinStr py!" " (py!"envvar_op" :: py!"unset" :: [n].map fun w => py!"\"" ++ w ++ py!"\"")) env)
      (SetEnv.envvarOp sys py!"unset" n [] true env) := by
  have := exec_envvar (tools := tools) (env := env) (op := py!"unset") (by decide) hn (ws := []) (xs := []) rfl
    (fun p hp => by cases hp) (acts_op hn (by decide) [] Acts.unset (by rintro _ rfl; rfl))
  rw [this]
  unfold SetEnv.envvarOp
  rw [if_neg (by simp), M.read_bind]
  dsimp only
  rw [if_neg (by decide), if_neg (by decide), if_neg (by decide), if_neg (by decide), if_pos rfl]
  cases hg : Dict.get? env n with
  | none =>
    rw [dictDel_none hg]
    exact ⟨rfl, .inl ⟨_, _, rfl, rfl⟩⟩
  | some v => exact ⟨rfl, .inl ⟨_, _, rfl, rfl⟩⟩

theorem envvarWords_op {a : Action} {op : Str} {ws : List Str} (h : EnvvarWords a (op :: ws)) : op ∈ opNames := by
  cases h with
  | unset => decide
  | two h _ => exact h

/-- A line made of words has no line end in it and is not a comment. -/
theorem line_plain {f : Str} {ws : List Str} (hf : '\n' ∉ f) (hh : ¬ (f = [] ∨ f.head? = some '#'))
    (hw : ∀ w ∈ ws, '\n' ∉ w) :
    '\n' ∉ joinStr py!" " (f :: ws) ∧ ¬ (joinStr py!" " (f :: ws) = [] ∨ (joinStr py!" " (f :: ws)).head? = some '#') := by
  have hj : ∀ (ws : List Str), (∀ w ∈ ws, '\n' ∉ w) → '\n' ∉ joinStr py!" " ws := by
    intro ws hws
    induction ws with
    | nil => simp [joinStr]
    | cons x ws ih =>
      have ih := ih fun w h => hws w (.tail _ h)
      cases ws with
      | nil => exact hws x (.head _)
      | cons y ws =>
        rw [joinStr_cons_cons]
        simp only [List.mem_append, not_or]
        exact ⟨⟨hws x (.head _), by decide⟩, ih⟩
  refine ⟨hj _ fun w h => ?_, ?_⟩
  · rcases List.mem_cons.1 h with rfl | h
    · exact hf
    · exact hw w h
  · cases f with
    | nil => exact absurd (.inl rfl) hh
    | cons c f =>
      cases ws with
      | nil => exact hh
      | cons y ws =>
        rw [joinStr_cons_cons]
        rintro (h | h)
        · cases h
        · exact hh (.inr h)

/-- The Bash line of a portable action ends like the step of Python. -/
theorem alike_step {sys : Sys} {tools : Tools} {env : Environ} {a : Action} {l : Str} {m : M Environ Int}
    (hp : Portable sys tools env a) (hl : CommandLine py!"bash" a l) (hd : Does sys a m) :
    EndAlike (exec tools l env) (m env) ∧ '\n' ∉ l ∧ ¬ (l = [] ∨ l.head? = some '#') := by
  obtain ⟨d1, d2, d3, d4, d5⟩ := @words_det a
  have hvar : ∀ {n : Str}, VarName n → '\n' ∉ n := fun hn h => absurd (hn.1.2 _ h) (by decide)
  have hopn : ∀ {op : Str}, op ∈ opNames → '\n' ∉ op := by
    intro op h hc
    exact absurd ((opName_bare h).2 _ hc) (by decide)
  cases hl with
  | @shEnvvar _ op ws hw =>
    have hop := envvarWords_op hw
    cases hp with
    | @unset n h hn =>
      cases d1 _ _ hw h
      refine ⟨?_, line_plain (by decide) (by decide) ?_⟩
      · cases hd with
        | unset h' => cases d1 _ _ hw h'; exact alike_unset hn
        | envvar h' => cases d1 _ _ hw h'
        | module h' => exact (d3 _ _ hw h').elim
        | incomplete h' => exact (d4 _ hw h').elim
      · intro w hw'
        rcases List.mem_cons.1 hw' with rfl | hw'
        · exact hopn hop
        · simp only [List.map_cons, List.map_nil, List.mem_singleton] at hw'
          subst hw'
          simp [hvar hn]
    | @envvar _ n w x h hn hm hpo he =>
      cases d1 _ _ hw h
      refine ⟨?_, line_plain (by decide) (by decide) ?_⟩
      · cases hd with
        | unset h' => cases d1 _ _ hw h'
        | envvar h' => cases d1 _ _ hw h'; exact alike_envvar hop hn hm hpo he
        | module h' => exact (d3 _ _ hw h').elim
        | incomplete h' => exact (d4 _ hw h').elim
      · have hwn : '\n' ∉ w := fun hc => means_chars hm _ hc (by decide)
        intro u hu
        rcases List.mem_cons.1 hu with rfl | hu
        · exact hopn hop
        · simp only [List.map_cons, List.map_nil, List.mem_cons, List.not_mem_nil, or_false] at hu
          rcases hu with rfl | rfl
          · simp [hvar hn]
          · simp [hwn]
    | module h => exact (d3 _ _ hw h).elim
  | @shModule _ ws hw =>
    cases hp with
    | unset h => exact (d3 _ _ h hw).elim
    | envvar h => exact (d3 _ _ h hw).elim
    | @module ws' i env' h hb hs ht =>
      cases d2 _ _ hw h
      refine ⟨?_, line_plain (by decide) (by decide) ?_⟩
      · rw [exec_module hb]
        cases hd with
        | unset h' => exact (d3 _ _ h' hw).elim
        | envvar h' => exact (d3 _ _ h' hw).elim
        | module h' =>
          cases d2 _ _ hw h'
          rw [hs, ht]
          exact ⟨rfl, .inl ⟨_, _, rfl, rfl⟩⟩
        | incomplete h' => exact (d5 _ hw h').elim
      · intro w hw' hc
        rcases (hb w hw').2 _ hc with h | h
        · exact absurd h (by decide)
        · exact absurd h (by decide)

theorem runScript_line (tools : Tools) {a : Str} (ha : '\n' ∉ a) (rest : Str) :
    runScript tools (a ++ '\n' :: rest) =
      if a = [] ∨ a.head? = some '#' then runScript tools rest
      else exec tools a >>= fun _ => runScript tools rest := by
  unfold runScript lines
  rw [splitChar_append ha, runLines]

theorem runScript_comment (tools : Tools) {a : Str} (ha : '\n' ∉ a) (hc : a = [] ∨ a.head? = some '#') (rest : Str) :
    runScript tools (a ++ '\n' :: rest) = runScript tools rest := by
  rw [runScript_line tools ha, if_pos hc]

/-- The lines of a script and the steps of a program: each line ends like its step, in the environment in which the step
is taken. -/
inductive AlikeRun (tools : Tools) : Environ → List Str → List (M Environ Int) → Prop
  | nil {env} : AlikeRun tools env [] []
  | cons {env c m cs ms} : EndAlike (exec tools c env) (m env) → '\n' ∉ c → ¬ (c = [] ∨ c.head? = some '#') →
      (∀ i env', m env = (.ok i, env') → AlikeRun tools env' cs ms) → AlikeRun tools env (c :: cs) (m :: ms)

theorem alike_portable {sys : Sys} {tools : Tools} {l : List Action} {ls : List Str} {ms : List (M Environ Int)}
    (hl : CommandLines py!"bash" l ls) (hp : Program sys l ms) {env : Environ} (hr : PortableRun sys tools env l) :
    AlikeRun tools env ls ms := by
  induction hl generalizing ms env with
  | nil => cases hp; exact .nil
  | @cons _ cmd _ _ h1 _ ih =>
    cases hp with
    | @cons _ m _ ms hd hp =>
      cases hr with
      | cons hpa hd' hnext =>
        cases does_det hd hd'
        obtain ⟨e, hn, hh⟩ := alike_step hpa h1 hd
        exact .cons e hn hh fun i env' hm => ih hp (hnext i env' hm)

theorem alike_commands {tools : Tools} {ls : List Str} {ms : List (M Environ Int)} {env : Environ}
    (hr : AlikeRun tools env ls ms) :
    EndAlike (runScript tools ((ls.map (· ++ py!"\n")).flatten ++ py!"\n\n") env) (runEach ms env) := by
  induction hr with
  | nil => exact ⟨rfl, .inl ⟨_, _, rfl, rfl⟩⟩
  | @cons env cmd m cs ms e hn hh _ ih =>
    obtain ⟨e1, e2⟩ := e
    rw [List.map_cons, List.flatten_cons, List.append_assoc, List.append_assoc]
    rw [show ∀ t : Str, py!"\n" ++ t = '\n' :: t from fun _ => rfl, runScript_line tools hn, if_neg hh]
    unfold runEach
    rw [M.bind_def]
    rcases e2 with ⟨u, i, h2, h3⟩ | ⟨h2, h3⟩
    · have hm : m env = (.ok i, (m env).2) := by rw [← h3]
      have hx : exec tools cmd env = (.ok u, (m env).2) := by rw [← e1, ← h2]
      rw [hx, hm]
      exact ih i _ hm
    · have hm : m env = (.exc .valueError, (m env).2) := by rw [← h3]
      have hx : exec tools cmd env = (.exc (.user py!"exit"), (m env).2) := by rw [← e1, ← h2]
      rw [hx, hm]
      exact ⟨rfl, .inr ⟨rfl, rfl⟩⟩

theorem alike_lines {sys : Sys} {tools : Tools} {ls : List Str} {ms : List (M Environ Int)} {env : Environ}
    (hr : AlikeRun tools env ls ms) (sheb : Bool) :
    EndAlike (runScript tools (scriptText sys py!"bash" false sheb (some ls)) env) (runEach ms env) := by
  have hb : ∀ rest : Str, runScript tools (banner ++ rest) = runScript tools rest := by
    intro rest
    show runScript tools (py!"# -------------------------------------------------" ++ '\n' ::
      (py!"#   S E T E N V I R O N M E N T   C O M M A N D S" ++ '\n' ::
        (py!"# -------------------------------------------------" ++ '\n' :: rest))) = _
    rw [runScript_comment tools (by decide) (.inr rfl), runScript_comment tools (by decide) (.inr rfl),
      runScript_comment tools (by decide) (.inr rfl)]
  unfold scriptText
  rw [if_neg (c := false = true) (by simp), List.append_nil]
  cases sheb with
  | false =>
    rw [if_neg (by simp), List.nil_append]
    dsimp only
    rw [List.append_assoc, hb]
    exact alike_commands hr
  | true =>
    rw [if_pos (by simp), if_pos rfl]
    dsimp only
    rw [show ∀ t : Str, py!"#!/usr/bin/env bash\n" ++ t = py!"#!/usr/bin/env bash" ++ '\n' :: t from fun _ => rfl,
      runScript_comment tools (by decide) (.inr rfl), List.append_assoc, hb]
    exact alike_commands hr

theorem alike_text {sys : Sys} {tools : Tools} {l : List Action} {ls : List Str} {ms : List (M Environ Int)}
    (hl : CommandLines py!"bash" l ls) (hp : Program sys l ms) {env : Environ} (hr : PortableRun sys tools env l)
    (sheb : Bool) :
    EndAlike (runScript tools (scriptText sys py!"bash" false sheb (some ls)) env) (runEach ms env) :=
  alike_lines (alike_portable hl hp hr) sheb

/-! ### Path entries -/

theorem replaceGo_skip (pat rep : Str) (k : Nat) (s : Str) : replaceGo pat rep k s = replaceGo pat rep 0 (s.drop k) := by
  induction k generalizing s with
  | zero => rfl
  | succ k ih =>
    cases s with
    | nil => rfl
    | cons c s => exact ih s

/-- Text without a colon before the next colon is copied. -/
theorem replaceGo_copy {p rep e : Str} (he : ':' ∉ e) (s : Str) :
    replaceGo (':' :: p) rep 0 (e ++ s) = e ++ replaceGo (':' :: p) rep 0 s := by
  induction e with
  | nil => rfl
  | cons c e ih =>
    have hc : ':' ≠ c := fun h => he (h ▸ .head _)
    show replaceGo _ _ 0 (c :: (e ++ s)) = _
    rw [replaceGo, if_neg (by simp [List.isPrefixOf, hc]), ih fun h => he (.tail _ h)]
    rfl

/-- `x:` is a prefix of `e:...` only if `e` is `x`. -/
theorem entry_prefix {x e : Str} (hx : ':' ∉ x) (he : ':' ∉ e) (s : Str) :
    (x ++ py!":").isPrefixOf (e ++ ':' :: s) = true ↔ e = x := by
  induction x generalizing e with
  | nil =>
    cases e with
    | nil => simp [List.isPrefixOf]
    | cons c e =>
      have hc : ':' ≠ c := fun h => he (h ▸ .head _)
      simp [List.isPrefixOf, hc]
  | cons d x ih =>
    cases e with
    | nil =>
      have hc : d ≠ ':' := fun h => hx (h ▸ .head _)
      simp [List.isPrefixOf, hc]
    | cons c e =>
      have := ih (e := e) (fun h => hx (.tail _ h)) (fun h => he (.tail _ h))
      simp only [List.cons_append, List.isPrefixOf_cons_cons, Bool.and_eq_true, beq_iff_eq, this, List.cons.injEq]
      constructor
      · rintro ⟨rfl, rfl⟩; exact ⟨rfl, rfl⟩
      · rintro ⟨rfl, rfl⟩; exact ⟨rfl, rfl⟩

theorem fenced_cons (e : Str) (es : List Str) : fenced (e :: es) = py!":" ++ e ++ fenced es := by
  unfold fenced
  simp

theorem replaceGo_fenced {x : Str} (hx : ':' ∉ x) {es ks : List Str} (h : Thinned x es ks)
    (hes : ∀ e ∈ es, ':' ∉ e) : replaceGo (py!":" ++ x ++ py!":") py!":" 0 (fenced es) = fenced ks := by
  have hpat : py!":" ++ x ++ py!":" = ':' :: (x ++ py!":") := by simp
  have hlen : (':' :: (x ++ py!":")).length - 1 = x.length + 1 := by simp
  rw [hpat]
  have hf : ∀ es : List Str, fenced es = ':' :: (es.map (· ++ py!":")).flatten := fun _ => rfl
  induction h with
  | nil =>
    show replaceGo _ _ 0 [':'] = _
    rw [replaceGo, if_neg (by
      rw [List.isPrefixOf_cons_cons]
      cases x with
      | nil => simp
      | cons => simp)]
    rfl
  | @keep e es ks hne _ ih =>
    have he := hes e (.head _)
    rw [fenced_cons, fenced_cons, ← ih fun d hd => hes d (.tail _ hd)]
    show replaceGo _ _ 0 (':' :: (e ++ fenced es)) = _
    rw [replaceGo, if_neg, replaceGo_copy he]
    · simp
    · rw [List.isPrefixOf_cons_cons, hf es, Bool.and_eq_true, entry_prefix hx he]
      exact fun h => hne h.2
  | last =>
    rw [fenced_cons]
    show replaceGo _ _ 0 (':' :: (x ++ fenced [])) = _
    rw [hf [], replaceGo, if_pos (by rw [List.isPrefixOf_cons_cons, Bool.and_eq_true, entry_prefix hx hx]; simp), hlen,
      replaceGo_skip, show (x ++ ':' :: (List.map (· ++ py!":") []).flatten).drop (x.length + 1) = [] by simp]
    rfl
  | @drop e es ks _ ih =>
    have he := hes e (.tail _ (.head _))
    rw [fenced_cons, fenced_cons, fenced_cons, ← ih fun d hd => hes d (.tail _ (.tail _ hd))]
    show replaceGo _ _ 0 (':' :: (x ++ (':' :: (e ++ fenced es)))) = _
    rw [replaceGo, if_pos (by rw [List.isPrefixOf_cons_cons, Bool.and_eq_true, entry_prefix hx hx]; simp), hlen,
      replaceGo_skip, show (x ++ ':' :: (e ++ fenced es)).drop (x.length + 1) = e ++ fenced es by simp,
      replaceGo_copy he]
    simp

theorem thinned_total (x : Str) : ∀ es, ∃ ks, Thinned x es ks
  | [] => ⟨_, .nil⟩
  | [e] => by
    by_cases h : e = x
    · subst h; exact ⟨_, .last⟩
    · exact ⟨_, .keep h .nil⟩
  | e :: e' :: es => by
    by_cases h : e = x
    · subst h
      obtain ⟨_, hk⟩ := thinned_total e es
      exact ⟨_, .drop hk⟩
    · obtain ⟨_, hk⟩ := thinned_total x (e' :: es)
      exact ⟨_, .keep h hk⟩

theorem fenced_join {es : List Str} (h : es ≠ []) : py!":" ++ joinStr py!":" es ++ py!":" = fenced es := by
  induction es with
  | nil => exact absurd rfl h
  | cons e es ih =>
    cases es with
    | nil => simp [joinStr, fenced]
    | cons d es =>
      rw [joinStr_cons_cons, fenced_cons, ← ih (by simp)]
      simp

theorem dropSuffix_fence (p s : Str) (hp : p.getLast? ≠ some ':') (hne : p ≠ []) : dropSuffix p (s ++ py!":") = s ++ py!":" := by
  have hr : p.reverse.isPrefixOf ((s ++ py!":").reverse) = false := by
    rw [← List.head?_reverse] at hp
    rw [List.reverse_append]
    cases hq : p.reverse with
    | nil => exact absurd (List.reverse_eq_nil_iff.1 hq) hne
    | cons c q =>
      rw [hq] at hp
      have hc : c ≠ ':' := fun h => hp (by rw [h]; rfl)
      show (c :: q).isPrefixOf (':' :: s.reverse) = false
      simp [List.isPrefixOf, hc]
  unfold dropSuffix dropPrefix
  rw [hr, if_neg (by simp), List.reverse_reverse]

theorem fenced_last (ks : List Str) : ∃ s, fenced ks = s ++ py!":" := by
  induction ks with
  | nil => exact ⟨[], rfl⟩
  | cons k ks ih =>
    obtain ⟨s, hs⟩ := ih
    exact ⟨py!":" ++ k ++ s, by rw [fenced_cons, hs]; simp⟩

/-- What the function for path entries makes of a list of entries. -/
theorem entryText_thinned {x : Str} (hx : ':' ∉ x) {es ks : List Str} (hne : es ≠ []) (hes : ∀ e ∈ es, ':' ∉ e)
    (h : Thinned x es ks) :
    entryText x (joinStr py!":" es) = dropPrefix py!":1" (fenced ks) := by
  unfold entryText
  rw [fenced_join hne, replaceGo_fenced hx h hes]
  obtain ⟨s, hs⟩ := fenced_last ks
  unfold dropPrefix
  split
  · rename_i hp
    rw [List.isPrefixOf_iff_prefix] at hp
    obtain ⟨t, ht⟩ := hp
    have hd : (fenced ks).drop (List.length py!":1") = t := by rw [← ht]; rfl
    rw [hd]
    have : t ≠ [] := by
      rintro rfl
      have := congrArg List.getLast? ht
      rw [hs, List.getLast?_append] at this
      simp at this
    obtain ⟨u, c, rfl⟩ : ∃ u c, t = u ++ [c] := ⟨t.dropLast, t.getLast this, (List.dropLast_concat_getLast this).symm⟩
    have hc := congrArg List.getLast? ht
    rw [hs, ← List.append_assoc] at hc
    simp only [List.getLast?_append, List.getLast?_singleton, Option.some_or, Option.some.injEq] at hc
    subst hc
    exact dropSuffix_fence _ _ (by decide) (by decide)
  · rw [hs]
    exact dropSuffix_fence _ _ (by decide) (by decide)

theorem count_joinStr {es : List Str} (h : ∀ e ∈ es, ':' ∉ e) : (joinStr py!":" es).count ':' = es.length - 1 := by
  induction es with
  | nil => rfl
  | cons e es ih =>
    have he : List.count ':' e = 0 := List.count_eq_zero.2 (h e (.head _))
    cases es with
    | nil => simpa [joinStr] using he
    | cons d es =>
      rw [joinStr_cons_cons, List.count_append, List.count_append, he, ih fun x hx => h x (.tail _ hx)]
      simp
      omega

theorem count_fenced {es : List Str} (h : ∀ e ∈ es, ':' ∉ e) : (fenced es).count ':' = es.length + 1 := by
  induction es with
  | nil => rfl
  | cons e es ih =>
    have he : List.count ':' e = 0 := List.count_eq_zero.2 (h e (.head _))
    rw [fenced_cons, List.count_append, List.count_append, he, ih fun x hx => h x (.tail _ hx)]
    simp
    omega

theorem thinned_length {x : Str} {es ks : List Str} (h : Thinned x es ks) :
    (es.filter fun e => decide (e ≠ x)).length ≤ ks.length ∧ ∀ k ∈ ks, k ∈ es := by
  induction h with
  | nil => simp
  | keep hne _ ih =>
    refine ⟨by simpa [hne] using ih.1, fun k hk => ?_⟩
    rcases List.mem_cons.1 hk with rfl | hk
    · exact .head _
    · exact .tail _ (ih.2 k hk)
  | last => simp
  | @drop e es ks _ ih =>
    refine ⟨?_, fun k hk => ?_⟩
    · have := ih.1
      by_cases he : e = x
      · simp [he] at this ⊢; omega
      · simp [he] at this ⊢; omega
    · rcases List.mem_cons.1 hk with rfl | hk
      · exact .tail _ (.head _)
      · exact .tail _ (.tail _ (ih.2 k hk))

/-- It is never what Python makes of it. -/
theorem entryText_differs {x : Str} (hx : ':' ∉ x) {es : List Str} (hne : es ≠ []) (hes : ∀ e ∈ es, ':' ∉ e) :
    entryText x (joinStr py!":" es) ≠ joinStr py!":" (es.filter fun e => decide (e ≠ x)) := by
  obtain ⟨ks, h⟩ := thinned_total x es
  obtain ⟨hlen, hmem⟩ := thinned_length h
  have hks : ∀ k ∈ ks, ':' ∉ k := fun k hk => hes k (hmem k hk)
  rw [entryText_thinned hx hne hes h]
  intro e
  have hc := congrArg (List.count ':') e
  rw [count_joinStr fun d hd => hes d (List.mem_filter.1 hd).1] at hc
  have hf := count_fenced hks
  unfold dropPrefix at hc
  split at hc
  · rename_i hp
    rw [List.isPrefixOf_iff_prefix] at hp
    obtain ⟨t, ht⟩ := hp
    rw [← ht] at hc hf
    rw [List.drop_left] at hc
    rw [List.count_append, hc] at hf
    have h1 : List.count ':' py!":1" = 1 := by decide
    rw [h1] at hf
    cases ks with
    | nil => exact absurd ht (by simp [fenced])
    | cons k ks => simp at hf hlen; omega
  · rw [hc] at hf
    omega

theorem mem_fenced {ks : List Str} {c : Char} (h : c ∈ fenced ks) : c = ':' ∨ ∃ k ∈ ks, c ∈ k := by
  induction ks with
  | nil => simp [fenced] at h; exact .inl h
  | cons k ks ih =>
    rw [fenced_cons] at h
    rcases List.mem_append.1 h with h | h
    · rcases List.mem_append.1 h with h | h
      · simp at h; exact .inl h
      · exact .inr ⟨k, .head _, h⟩
    · rcases ih h with h | ⟨k', hk, hc⟩
      · exact .inl h
      · exact .inr ⟨k', .tail _ hk, hc⟩

theorem mem_dropPrefix {p s : Str} {c : Char} (h : c ∈ dropPrefix p s) : c ∈ s := by
  unfold dropPrefix at h
  split at h
  · exact List.mem_of_mem_drop h
  · exact h

theorem mem_joinStr {es : List Str} {e : Str} (he : e ∈ es) {c : Char} (hc : c ∈ e) (sep : Str) : c ∈ joinStr sep es := by
  induction es with
  | nil => cases he
  | cons d es ih =>
    cases es with
    | nil =>
      rw [List.mem_singleton] at he
      subst he
      exact hc
    | cons d' es =>
      rw [joinStr_cons_cons]
      rcases List.mem_cons.1 he with rfl | he
      · simp [hc]
      · exact List.mem_append_right _ (ih he)

/-- The command for a path entry. -/
theorem exec_entry {tools : Tools} {env : Environ} {n w x : Str} (hn : VarName n) (hm : Means env w x) (hx : x ≠ [])
    (hp : ∀ c ∈ x, c ∉ ['*', '?', '[', '\\']) (hu : Unsplit (entryText x ((Dict.get? env n).getD []))) :
    exec tools (joinStr py!" " (py!"envvar_op" :: py!"remove_path_entry" ::
      [n, w].map fun w => py!"\"" ++ w ++ py!"\"")) env =
      (.ok (), Dict.set env n (entryText x ((Dict.get? env n).getD []))) := by
  have := exec_envvar (tools := tools) (env := env) (op := py!"remove_path_entry") (by decide) hn (ws := [w])
    (xs := [x]) rfl (fun p hp => by
      rw [List.zip_cons_cons, List.zip_nil_left, List.mem_singleton] at hp; subst hp; exact readsAs_of_means hm)
    (acts_op hn (by decide) [x] (.need hx (acts_removeEntry hn hx)) (by rintro _ rfl; rfl))
  rw [this, if_pos, if_pos ((unquotedSafe_iff _).2 hu)]
  unfold patternSafe
  rw [List.all_eq_true]
  intro c hc
  have := hp c hc
  simp only [List.mem_cons, List.not_mem_nil, or_false, not_or] at this
  simp [this]

/-- The command of an operation with an argument that is empty, where one is needed. -/
theorem exec_empty {tools : Tools} {env : Environ} {n w op : Str} (hn : VarName n) (hm : Means env w [])
    (hop : op ∈ [py!"append", py!"prepend", py!"remove_substr", py!"remove_path_entry", py!"find_in_path"]) :
    exec tools (joinStr py!" " (py!"envvar_op" :: op :: [n, w].map fun w => py!"\"" ++ w ++ py!"\"")) env =
      (.exc (.user py!"exit"), env) := by
  have run : op ∈ opNames → ∀ {r : Environ → Out Unit × Environ}, Acts n (envvarOp tools [op, n, []]) r →
      exec tools (joinStr py!" " (py!"envvar_op" :: op :: [n, w].map fun w => py!"\"" ++ w ++ py!"\"")) env = r env :=
    fun ho _ h => exec_envvar ho hn (ws := [w]) (xs := [[]]) rfl (fun p hp => by
      rw [List.zip_cons_cons, List.zip_nil_left, List.mem_singleton] at hp; subst hp; exact readsAs_of_means hm) h
  simp only [List.mem_cons, List.not_mem_nil, or_false] at hop
  rcases hop with rfl | rfl | rfl | rfl | rfl
  all_goals exact run (by decide) (acts_op hn (by decide) [[]] Acts.need_nil (by rintro _ rfl; rfl))

theorem exec_substr_unset {tools : Tools} {env : Environ} {n w x : Str} (hn : VarName n) (hm : Means env w x)
    (hx : x ≠ []) (hu : Unsplit x) (hs : ∀ c ∈ x, c ∉ ['.', ']', '^', '$', '#']) (hg : Dict.get? env n = none) :
    exec tools (joinStr py!" " (py!"envvar_op" :: py!"remove_substr" :: [n, w].map fun w => py!"\"" ++ w ++ py!"\"")) env =
      (.ok (), Dict.set env n []) := by
  have := exec_envvar (tools := tools) (env := env) (op := py!"remove_substr") (by decide) hn (ws := [w])
    (xs := [x]) rfl (fun p hp => by
      rw [List.zip_cons_cons, List.zip_nil_left, List.mem_singleton] at hp; subst hp; exact readsAs_of_means hm)
    (acts_op hn (by decide) [x] (.need hx (acts_removeSubstr hn hx)) (by rintro _ rfl; rfl))
  have h1 : '#' ∉ x := fun h => hs _ h (by decide)
  have h2 : sedSafe x = true := by
    unfold sedSafe
    rw [(unquotedSafe_iff x).2 hu, Bool.true_and, List.all_eq_true]
    intro c hc
    have := hs c hc
    simp only [List.mem_cons, List.not_mem_nil, or_false, not_or] at this
    simp [this]
  rw [this, if_neg h1, hg, if_pos ⟨rfl, by simp, h2⟩]
  rfl

/-- The command that removes a text. -/
theorem exec_substr {tools : Tools} {env : Environ} {n w x : Str} (hn : VarName n) (hm : Means env w x) (hx : x ≠ []) :
    exec tools (joinStr py!" " (py!"envvar_op" :: py!"remove_substr" :: [n, w].map fun w => py!"\"" ++ w ++ py!"\"")) env =
      if '#' ∈ x then (.ok (), env)
      else if unquotedSafe ((Dict.get? env n).getD []) = true ∧ ((Dict.get? env n).getD []).head? ≠ some '-' ∧ sedSafe x = true
      then (.ok (), Dict.set env n (replaceGo x [] 0 ((Dict.get? env n).getD [])))
      else (.exc (.user py!"NotModelled"), env) :=
  exec_envvar (tools := tools) (env := env) (op := py!"remove_substr") (by decide) hn (ws := [w])
    (xs := [x]) rfl (fun p hp => by
      rw [List.zip_cons_cons, List.zip_nil_left, List.mem_singleton] at hp; subst hp; exact readsAs_of_means hm)
    (acts_op hn (by decide) [x] (.need hx (acts_removeSubstr hn hx)) (by rintro _ rfl; rfl))

/-- The command that removes an entry, for any entry. -/
theorem exec_entry_any {tools : Tools} {env : Environ} {n w x : Str} (hn : VarName n) (hm : Means env w x) (hx : x ≠ []) :
    exec tools (joinStr py!" " (py!"envvar_op" :: py!"remove_path_entry" :: [n, w].map fun w => py!"\"" ++ w ++ py!"\"")) env =
      if patternSafe x = true then
        if unquotedSafe (entryText x ((Dict.get? env n).getD [])) = true then
          (.ok (), Dict.set env n (entryText x ((Dict.get? env n).getD [])))
        else (.exc (.user py!"NotModelled"), env)
      else (.exc (.user py!"NotModelled"), env) :=
  exec_envvar (tools := tools) (env := env) (op := py!"remove_path_entry") (by decide) hn (ws := [w])
    (xs := [x]) rfl (fun p hp => by
      rw [List.zip_cons_cons, List.zip_nil_left, List.mem_singleton] at hp; subst hp; exact readsAs_of_means hm)
    (acts_op hn (by decide) [x] (.need hx (acts_removeEntry hn hx)) (by rintro _ rfl; rfl))

/-- The command that looks for a program, where Bash splits the name. -/
theorem exec_find_not {tools : Tools} {env : Environ} {n w x : Str} (hn : VarName n) (hm : Means env w x) (hx : x ≠ [])
    (hb : ¬ (unquotedSafe x = true ∧ x.head? ≠ some '-')) :
    exec tools (joinStr py!" " (py!"envvar_op" :: py!"find_in_path" :: [n, w].map fun w => py!"\"" ++ w ++ py!"\"")) env =
      (.exc (.user py!"NotModelled"), env) :=
  exec_envvar (tools := tools) (env := env) (op := py!"find_in_path") (by decide) hn (ws := [w])
    (xs := [x]) rfl (fun p hp => by
      rw [List.zip_cons_cons, List.zip_nil_left, List.mem_singleton] at hp; subst hp; exact readsAs_of_means hm)
    (r := fun env => (.exc (.user py!"NotModelled"), env))
    (acts_op hn (by decide) [x] (.need hx (.raise _)) (by
      rintro _ rfl
      show (do Bash.need x; if unquotedSafe x = true ∧ x.head? ≠ some '-' then _ else notModelled) = _
      rw [if_neg hb]
      rfl))

theorem mem_removeSubstr {sub s : Str} {c : Char} (h : c ∈ removeSubstr sub s) : c ∈ s := by
  unfold removeSubstr at h
  split at h
  · exact h
  · exact mem_removeGo h

/-- The command that sets a variable. -/
theorem exec_set {tools : Tools} {env : Environ} {n w x : Str} (hn : VarName n) (hm : ReadsAs env w x) :
    exec tools (joinStr py!" " (py!"envvar_op" :: py!"set" :: [n, w].map fun w => py!"\"" ++ w ++ py!"\"")) env =
      (.ok (), Dict.set env n x) :=
  exec_envvar (tools := tools) (env := env) (op := py!"set") (by decide) hn (ws := [w])
    (xs := [x]) rfl (fun p hp => by
      rw [List.zip_cons_cons, List.zip_nil_left, List.mem_singleton] at hp; subst hp; exact hm)
    (acts_op hn (by decide) [x] (acts_set hn x) (by rintro _ rfl; rfl))

/-- A reference to a variable that is not set reads as nothing. -/
theorem readsAs_unset {env : Environ} {x : Str} (hx : Identifier x) (hg : Dict.get? env x = none) :
    ReadsAs env (py!"$" ++ x) [] ∧ ReadsAs env (py!"${" ++ x ++ py!"}") [] := by
  have hc := means_chars (means_self hx.2 env)
  refine ⟨⟨?_, ?_⟩, ⟨?_, ?_⟩⟩
  · show expandGo env 0 ('$' :: x) = _
    have := readRef_bare (s := []) hx (by simp)
    rw [List.append_nil] at this
    unfold expandGo
    rw [if_pos rfl, this]
    dsimp only
    rw [hg, expandGo_skip, List.drop_length]
    rfl
  · refine readWords_quot fun c h => ?_
    rcases List.mem_append.1 h with h | h
    · simp at h; subst h; decide
    · exact hc c h
  · have e : py!"${" ++ x ++ py!"}" = '$' :: ('{' :: x ++ '}' :: []) := by simp
    rw [e]
    unfold expandGo
    rw [if_pos rfl, readRef_braced hx]
    dsimp only
    rw [hg, expandGo_skip, show ('{' :: x ++ ['}']).drop (x.length + 2) = [] by simp]
    rfl
  · refine readWords_quot fun c h => ?_
    rcases List.mem_append.1 h with h | h
    · rcases List.mem_append.1 h with h | h
      · simp at h; rcases h with rfl | rfl <;> decide
      · exact hc c h
    · simp at h; subst h; decide

/-- `set` on a local variable of `envvar_op`. -/
theorem exec_set_local {tools : Tools} {env : Environ} {n w x : Str} (hn : n ∈ [py!"op", py!"arg1", py!"arg2"])
    (hm : ReadsAs env w x) :
    exec tools (joinStr py!" " (py!"envvar_op" :: py!"set" :: [n, w].map fun w => py!"\"" ++ w ++ py!"\"")) env =
      (.ok (), env) := by
  have hw : ∀ c ∈ n, WordChar c := by
    revert n
    decide +kernel
  rw [exec_call (by decide) hw (ws := [w]) (xs := [x]) rfl (fun p hp => by
    rw [List.zip_cons_cons, List.zip_nil_left, List.mem_singleton] at hp; subst hp; exact hm)]
  simp only [List.mem_cons, List.not_mem_nil, or_false] at hn
  rcases hn with rfl | rfl | rfl <;> rfl

end Bash
end CPE.SetEnv
