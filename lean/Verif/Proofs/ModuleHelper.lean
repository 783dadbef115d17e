import Verif.Spec.ModuleHelper
import Verif.Proofs.EnvVars
import Verif.Proofs.IniText
/-
Lemmas about the model of ModuleHelper.
-/
namespace CPE.MH
open CPE CPE.SetEnv CPE.Spec CPE.MH.Spec

/-! ### words -/

theorem space_iff (c : Char) : isSpace c = true ↔ White c := Props.isSpace_iff c

theorem no_space_iff (c : Char) : isSpace c = false ↔ ¬ White c := by rw [← space_iff]; simp

theorem words_splitGo : ∀ (s cur : Str), (∀ c ∈ cur, ¬ White c) → SpaceWords (cur ++ s) (splitGo cur s)
  | [], cur, h => by
    rw [splitGo]
    by_cases hc : cur = []
    · subst hc; exact .nil
    · rw [if_neg hc]; exact .word hc h (by simp) .nil
  | c :: cs, cur, h => by
    rw [splitGo]
    by_cases hs : isSpace c = true
    · rw [if_pos hs]
      by_cases hc : cur = []
      · subst hc; rw [if_pos rfl]; exact .space ((space_iff c).1 hs) (words_splitGo cs [] (by simp))
      · rw [if_neg hc]
        exact .word hc h (by intro x hx; simp at hx; exact hx ▸ (space_iff c).1 hs)
          (.space ((space_iff c).1 hs) (words_splitGo cs [] (by simp)))
    · rw [if_neg hs]
      have := words_splitGo cs (cur ++ [c]) (by
        intro x hx
        rcases List.mem_append.1 hx with hx | hx
        · exact h x hx
        · simp at hx; subst hx; exact fun hw => hs ((space_iff _).2 hw))
      rwa [List.append_assoc] at this

theorem splitGo_append : ∀ (w : Str), (∀ c ∈ w, ¬ White c) → ∀ cur s, splitGo cur (w ++ s) = splitGo (cur ++ w) s
  | [], _, cur, s => by simp
  | c :: w, h, cur, s => by
    rw [List.cons_append, splitGo, if_neg, splitGo_append w (fun x hx => h x (by simp [hx])), List.append_assoc]
    · rfl
    · exact fun hs => h c (by simp) ((space_iff c).1 hs)

theorem splitSpace_of_words {s : Str} {ws : List Str} (h : SpaceWords s ws) : splitSpace s = ws := by
  unfold splitSpace
  induction h with
  | nil => rfl
  | space hc _ ih => rw [splitGo, if_pos ((space_iff _).2 hc), if_pos rfl, ih]
  | @word w s ws hne hw hs _ ih =>
    rw [splitGo_append w hw, List.nil_append, ← ih]
    cases s with
    | nil => rw [splitGo, if_neg hne]; rfl
    | cons c cs =>
      have hc : isSpace c = true := (space_iff c).2 (hs c (by simp))
      rw [splitGo, if_pos hc, if_neg hne]
      conv => rhs; rw [splitGo, if_pos hc, if_pos rfl]

theorem splitSpace_iff (s : Str) (ws : List Str) : splitSpace s = ws ↔ SpaceWords s ws :=
  ⟨fun h => h ▸ words_splitGo s [] (by simp), splitSpace_of_words⟩

/-! ### the definition of the shell function -/

theorem takeDrop {p : Char → Bool} : ∀ {a b : Str}, (∀ c ∈ a, p c = true) → (∀ c ∈ b.head?, p c = false) →
    (a ++ b).takeWhile p = a ∧ (a ++ b).dropWhile p = b
  | [], b, _, hb => by
    cases b with
    | nil => exact ⟨rfl, rfl⟩
    | cons c cs => have := hb c (by simp); simp [this]
  | c :: a, b, ha, hb => by
    have hc := ha c (by simp)
    obtain ⟨h1, h2⟩ := takeDrop (p := p) (a := a) (b := b) (fun x hx => ha x (by simp [hx])) hb
    simp [hc, h1, h2]

theorem isPrefixOf?_iff : ∀ {a s r : Str}, List.isPrefixOf? a s = some r ↔ s = a ++ r
  | [], s, r => by simp [List.isPrefixOf?]
  | x :: a, [], r => by simp [List.isPrefixOf?]
  | x :: a, y :: s, r => by
    rw [List.isPrefixOf?]
    by_cases h : x = y
    · subst h; simp [isPrefixOf?_iff (a := a)]
    · simp [h, Ne.symm h]

theorem evalAt_iff (s p : Str) :
    evalAt s = some p ↔ (∀ c ∈ p, ¬ White c) ∧ ∃ y, s = py!"eval `" ++ p ++ py!" bash" ++ y := by
  unfold evalAt
  cases h : List.isPrefixOf? py!"eval `" s with
  | none =>
    simp only [reduceCtorEq, false_iff]
    rintro ⟨_, y, hy⟩
    rw [List.append_assoc, List.append_assoc] at hy
    rw [isPrefixOf?_iff.2 hy] at h
    cases h
  | some r =>
    have hs := isPrefixOf?_iff.1 h
    dsimp only
    constructor
    · intro hp
      by_cases hb : py!" bash".isPrefixOf (r.dropWhile fun c => !isSpace c) = true
      · rw [if_pos hb] at hp
        obtain ⟨y, hy⟩ := List.isPrefixOf_iff_prefix.1 hb
        simp only [Option.some.injEq] at hp
        refine ⟨fun c hc => ?_, y, ?_⟩
        · rw [← hp] at hc
          have := List.all_takeWhile (p := fun c => !isSpace c) (l := r)
          have := List.all_eq_true.1 this c hc
          exact (no_space_iff c).1 (by simpa using this)
        · rw [hs, List.append_assoc, List.append_assoc, hy, ← hp, List.takeWhile_append_dropWhile]
      · rw [if_neg hb] at hp; cases hp
    · rintro ⟨hp, y, hy⟩
      rw [hs, List.append_assoc, List.append_assoc] at hy
      have hr := List.append_cancel_left hy
      obtain ⟨h1, h2⟩ := takeDrop (p := fun c => !isSpace c) (a := p) (b := py!" bash" ++ y)
        (fun c hc => by simp [(no_space_iff c).2 (hp c hc)]) (by
          intro c hc
          have : c = ' ' := by simpa using hc.symm
          subst this; decide)
      rw [hr, h1, h2, if_pos]
      exact List.isPrefixOf_iff_prefix.2 ⟨y, rfl⟩

theorem evalIn_iff : ∀ (l p : Str), evalIn l = some p ↔ Says l p
  | [], p => by
    simp only [evalIn, reduceCtorEq, false_iff]
    rintro ⟨_, x, y, h, _⟩
    have := congrArg List.length h
    simp at this
  | c :: cs, p => by
    rw [evalIn]
    cases h : evalAt (c :: cs) with
    | some g =>
      obtain ⟨hg, y, hy⟩ := (evalAt_iff _ _).1 h
      simp only [Option.some.injEq]
      constructor
      · rintro rfl
        exact ⟨hg, [], y, hy, by simp⟩
      · rintro ⟨hp, x', y', h', hmin⟩
        have hx := hmin [] g y hy hg
        have hx : x' = [] := List.length_eq_zero_iff.1 (Nat.le_zero.1 hx)
        subst hx
        have := (evalAt_iff (c :: cs) p).2 ⟨hp, y', h'⟩
        rw [h] at this
        exact Option.some.inj this
    | none =>
      rw [evalIn_iff cs p]
      have hno : ∀ p' y', c :: cs = [] ++ py!"eval `" ++ p' ++ py!" bash" ++ y' → ¬ ∀ c ∈ p', ¬ White c := by
        intro p' y' h' hp'
        rw [(evalAt_iff _ p').2 ⟨hp', y', h'⟩] at h
        cases h
      constructor
      · rintro ⟨hp, x, y, hy, hmin⟩
        refine ⟨hp, c :: x, y, by rw [hy]; rfl, ?_⟩
        intro x' p' y' h' hp'
        cases x' with
        | nil => exact absurd hp' (hno p' y' h')
        | cons d x' =>
          have := hmin x' p' y' (by simpa using (List.cons.inj h').2) hp'
          simpa using this
      · rintro ⟨hp, x, y, hy, hmin⟩
        cases x with
        | nil => exact absurd hp (hno p y hy)
        | cons d x =>
          refine ⟨hp, x, y, by simpa using (List.cons.inj hy).2, ?_⟩
          intro x' p' y' h' hp'
          have := hmin (c :: x') p' y' (by rw [h']; rfl) hp'
          simpa using this

theorem evalIn_none (l : Str) : evalIn l = none ↔ ∀ q, ¬ Says l q := by
  constructor
  · intro h q hq
    rw [(evalIn_iff l q).2 hq] at h
    cases h
  · intro h
    cases hl : evalIn l with
    | none => rfl
    | some q => exact absurd ((evalIn_iff l q).1 hl) (h q)

theorem filterMap_nil {α β : Type} {f : α → Option β} : ∀ {l : List α}, l.filterMap f = [] ↔ ∀ x ∈ l, f x = none
  | [] => by simp
  | a :: l => by
    rw [List.filterMap_cons]
    cases h : f a with
    | none => simp [h]
    | some b => simp [h]

theorem filterMap_one {α β : Type} {f : α → Option β} {p : β} : ∀ {l : List α}, l.filterMap f = [p] ↔
    ∃ b a c, l = b ++ a :: c ∧ f a = some p ∧ ∀ x ∈ b ++ c, f x = none
  | [] => by simp
  | a :: l => by
    rw [List.filterMap_cons]
    cases h : f a with
    | none =>
      dsimp only
      rw [filterMap_one]
      constructor
      · rintro ⟨b, x, c, rfl, hx, hn⟩
        exact ⟨a :: b, x, c, rfl, hx, by
          intro y hy
          rcases List.mem_cons.1 hy with rfl | hy
          · exact h
          · exact hn y hy⟩
      · rintro ⟨b, x, c, he, hx, hn⟩
        cases b with
        | nil =>
          obtain ⟨rfl, rfl⟩ := List.cons.inj he
          rw [h] at hx; cases hx
        | cons y b =>
          obtain ⟨rfl, rfl⟩ := List.cons.inj he
          exact ⟨b, x, c, rfl, hx, fun z hz => hn z (by simp at hz ⊢; exact .inr hz)⟩
    | some q =>
      dsimp only
      constructor
      · intro he
        obtain ⟨hq, he⟩ := List.cons.inj he
        exact ⟨[], a, l, rfl, by rw [h, hq], filterMap_nil.1 he⟩
      · rintro ⟨b, x, c, he, hx, hn⟩
        cases b with
        | nil =>
          obtain ⟨rfl, rfl⟩ := List.cons.inj he
          rw [h] at hx
          obtain rfl := Option.some.inj hx
          rw [(filterMap_nil (l := l)).2 hn]
        | cons y b =>
          obtain ⟨rfl, rfl⟩ := List.cons.inj he
          have := hn a (by simp)
          rw [h] at this; cases this

theorem evalAll_iff (text p : Str) : evalAll text = [p] ↔ Defines text p := by
  unfold evalAll
  rw [filterMap_one]
  constructor
  · rintro ⟨b, l, c, he, hl, hn⟩
    refine ⟨b, l, c, ?_, ?_, (evalIn_iff l p).1 hl, fun x hx => (evalIn_none x).1 (hn x hx)⟩
    · rw [← he]; exact (joinStr_splitChar '\n' text).symm
    · rw [← he]; exact splitChar_not_mem '\n' text
  · rintro ⟨b, l, c, ht, hnl, hl, hn⟩
    refine ⟨b, l, c, ?_, (evalIn_iff l p).2 hl, fun x hx => (evalIn_none x).2 (hn x hx)⟩
    rw [ht]
    exact splitChar_joinStr (by simp) hnl

/-! ### modulecmd -/

section
variable (H : Host) (env : Environ)

theorem fromFunction_cases : (∃ p, fromFunction H env = .ok p) ∨ fromFunction H env = .error fileNotFound := by
  unfold fromFunction
  split
  · exact .inr rfl
  · split
    · split
      · exact .inl ⟨_, rfl⟩
      · exact .inr rfl
    · exact .inr rfl

theorem fromFunction_ok (p : Str) : fromFunction H env = .ok p ↔
    ∃ text q, H.typeModule env = some text ∧ Defines text p ∧ H.which env p = some q := by
  unfold fromFunction
  cases ht : H.typeModule env with
  | none => simp
  | some text =>
    dsimp only
    constructor
    · intro h
      split at h
      · rename_i p' he
        split at h
        · rename_i hw
          obtain rfl : p' = p := by injection h
          obtain ⟨q, hq⟩ := Option.isSome_iff_exists.1 hw
          exact ⟨text, q, rfl, (evalAll_iff _ _).1 he, hq⟩
        · cases h
      · cases h
    · rintro ⟨t, q, h1, h2, h3⟩
      obtain rfl := Option.some.inj h1
      rw [(evalAll_iff _ _).2 h2]
      simp [h3]

theorem locate_iff (p : Str) : locate H env = .ok p ↔ Located H env p := by
  unfold locate
  cases hf : H.finder env with
  | some q =>
    dsimp only
    constructor
    · intro h; injection h with h; subst h; exact .distutils hf
    · rintro (h | ⟨h, _⟩ | ⟨h, _⟩)
      · rw [hf] at h; rw [Option.some.inj h]
      · rw [hf] at h; cases h
      · rw [hf] at h; cases h
  | none =>
    cases hw : H.which env py!"modulecmd" with
    | some q =>
      dsimp only
      constructor
      · intro h; injection h with h; subst h; exact .path hf hw
      · rintro (h | ⟨_, h⟩ | ⟨_, h, _⟩)
        · rw [hf] at h; cases h
        · rw [hw] at h; rw [Option.some.inj h]
        · rw [hw] at h; cases h
    | none =>
      dsimp only
      rw [fromFunction_ok]
      constructor
      · rintro ⟨text, q, h1, h2, h3⟩; exact .function hf hw h1 h2 h3
      · rintro (h | ⟨_, h⟩ | ⟨_, _, h1, h2, h3⟩)
        · rw [hf] at h; cases h
        · rw [hw] at h; cases h
        · exact ⟨_, _, h1, h2, h3⟩

theorem locate_cases : (∃ p, Located H env p ∧ locate H env = .ok p) ∨
    ((∀ p, ¬ Located H env p) ∧ locate H env = .error fileNotFound) := by
  cases hl : locate H env with
  | ok p => exact .inl ⟨p, (locate_iff H env p).1 hl, rfl⟩
  | error e =>
    refine .inr ⟨fun p hp => ?_, ?_⟩
    · rw [(locate_iff H env p).2 hp] at hl; cases hl
    · unfold locate at hl
      split at hl
      · cases hl
      · split at hl
        · cases hl
        · rcases fromFunction_cases H env with ⟨p, h⟩ | h
          · rw [h] at hl; cases hl
          · rw [h] at hl; exact hl.symm

theorem line_iff (p : Str) (words args cmd : List Str) :
    Line p words args cmd ↔ cmd = p :: py!"python" :: words ++ argWords args := by
  constructor
  · intro h
    cases h with
    | one h => rw [argWords, splitSpace_of_words h]
    | other hl =>
      unfold argWords
      split
      · simp at hl
      · rfl
  · rintro rfl
    by_cases hl : args.length = 1
    · obtain ⟨a, rfl⟩ := List.length_eq_one_iff.1 hl
      exact .one ((splitSpace_iff a _).1 rfl)
    · have : argWords args = args := by
        unfold argWords
        split
        · simp at hl
        · rfl
      rw [this]
      exact .other hl

theorem reported_iff (r : Proc) : isSubstr py!"ERROR:" r.err = true ↔ Reported r := isSubstr_iff _ _

end

/-! ### LMOD -/

theorem checksFor_iff (c : Str) (args cs : List Str) : checksFor c args = .ok cs ↔ Checks (c :: args) cs := by
  constructor
  · intro h
    unfold checksFor at h
    by_cases h1 : c = py!"load"
    · rw [if_pos h1] at h; subst h1
      split at h
      · injection h with h; subst h; exact .load
      · cases h
    rw [if_neg h1] at h
    by_cases h2 : c = py!"unload"
    · rw [if_pos h2] at h; subst h2
      split at h
      · injection h with h; subst h; exact .unload
      · cases h
    rw [if_neg h2] at h
    by_cases h3 : c = py!"swap"
    · rw [if_pos h3] at h; subst h3
      split at h
      · injection h with h; subst h; exact .swap
      · cases h
    rw [if_neg h3] at h
    by_cases h4 : c = py!"use"
    · rw [if_pos h4] at h; subst h4
      split at h
      · injection h with h; subst h; exact .use
      · cases h
    rw [if_neg h4] at h
    injection h with h; subst h
    refine .other ?_
    simp only [List.mem_cons, List.not_mem_nil, or_false, not_or]
    exact ⟨h1, h2, h3, h4⟩
  · rintro (_ | _ | _ | _ | h)
    · rfl
    · rfl
    · rfl
    · rfl
    · simp only [List.mem_cons, List.not_mem_nil, or_false, not_or] at h
      simp only [checksFor, if_neg h.1, if_neg h.2.1, if_neg h.2.2.1, if_neg h.2.2.2]

theorem checks_iff {words : List Str} (hw : words ≠ []) (args cs : List Str) :
    checks words args = .ok cs ↔ Checks (words ++ args) cs := by
  cases words with
  | nil => exact absurd rfl hw
  | cons c more => exact checksFor_iff c (more ++ args) cs

theorem checks_error {words args : List Str} (hw : words ≠ []) {e : PyExc} (h : checks words args = .error e) :
    e = .indexError ∧ ∀ cs, ¬ Checks (words ++ args) cs := by
  refine ⟨?_, fun cs hc => ?_⟩
  · unfold checks at h
    split at h
    · injection h with h; exact h.symm
    · unfold checksFor at h
      repeat' split at h
      all_goals first | (injection h with h; exact h.symm) | cases h
  · rw [(checks_iff hw args cs).2 hc] at h; cases h

theorem runChecks_cases (H : Host) (env : Environ) : ∀ cs, (runChecks H env cs = 0 ∧ ∀ x ∈ cs, H.system x env = 0) ∨
    ∃ good c rest, cs = good ++ c :: rest ∧ (∀ x ∈ good, H.system x env = 0) ∧ H.system c env ≠ 0 ∧
      runChecks H env cs = H.system c env
  | [] => .inl ⟨rfl, by simp⟩
  | c :: cs => by
    rw [runChecks]
    by_cases hc : H.system c env ≠ 0
    · rw [if_pos hc]
      exact .inr ⟨[], c, cs, rfl, by simp, hc, rfl⟩
    · rw [if_neg hc]
      have hc : H.system c env = 0 := Decidable.not_not.1 hc
      rcases runChecks_cases H env cs with ⟨h1, h2⟩ | ⟨good, d, rest, rfl, h1, h2, h3⟩
      · exact .inl ⟨h1, by simpa [hc] using h2⟩
      · exact .inr ⟨c :: good, d, rest, rfl, by simpa [hc] using h1, h2, h3⟩

theorem runChecks_good (H : Host) (env : Environ) : ∀ {cs}, (∀ x ∈ cs, H.system x env = 0) → runChecks H env cs = 0
  | [], _ => rfl
  | c :: cs, h => by
    rw [runChecks, if_neg (by simp [h c (by simp)])]
    exact runChecks_good H env fun x hx => h x (by simp [hx])

theorem runChecks_bad (H : Host) (env : Environ) {c : Str} (rest : List Str) (hc : H.system c env ≠ 0) :
    ∀ {good}, (∀ x ∈ good, H.system x env = 0) → runChecks H env (good ++ c :: rest) = H.system c env
  | [], _ => by rw [List.nil_append, runChecks, if_pos hc]
  | d :: good, h => by
    rw [List.cons_append, runChecks, if_neg (by simp [h d (by simp)])]
    exact runChecks_bad H env rest hc fun x hx => h x (by simp [hx])

/-- One character of `asciiLower`. -/
def lowerOne (c : Char) : Char := if 'A' ≤ c ∧ c ≤ 'Z' then Char.ofNat (c.toNat + 32) else c

theorem asciiLower_cons (c : Char) (s : Str) : asciiLower (c :: s) = lowerOne c :: asciiLower s := rfl

theorem lowerOne_upper : ∀ n, n < 91 → 65 ≤ n →
    lowerOne (Char.ofNat n) = Char.ofNat (n + 32) ∧ lowerOne (Char.ofNat (n + 32)) = Char.ofNat (n + 32) := by
  decide +kernel

theorem sameLetters_lower {a b : Str} (h : SameLetters a b) : asciiLower a = asciiLower b := by
  induction h with
  | nil => rfl
  | same _ ih => rw [asciiLower_cons, asciiLower_cons, ih]
  | @upper n a b h1 h2 _ ih =>
    obtain ⟨h3, h4⟩ := lowerOne_upper n (by omega) h1
    rw [asciiLower_cons, asciiLower_cons, h3, h4, ih]

theorem lower_sameLetters : ∀ a, SameLetters a (asciiLower a)
  | [] => .nil
  | c :: a => by
    rw [asciiLower_cons]
    unfold lowerOne
    by_cases hc : 'A' ≤ c ∧ c ≤ 'Z'
    · rw [if_pos hc]
      have h1 : 65 ≤ c.toNat := hc.1
      have h2 : c.toNat ≤ 90 := hc.2
      have := SameLetters.upper (n := c.toNat) h1 h2 (lower_sameLetters a)
      rwa [Char.ofNat_toNat] at this
    · rw [if_neg hc]
      exact .same (lower_sameLetters a)

theorem lmodReported_iff (err : Str) : isSubstr py!"error:" (asciiLower err) = true ↔ LmodReported err := by
  rw [isSubstr_iff]
  constructor
  · rintro ⟨x, y, h⟩
    obtain ⟨xw, y', rfl, h1, _⟩ := List.map_eq_append_iff.1 (show List.map lowerOne err = (x ++ py!"error:") ++ y from h)
    obtain ⟨x', w, rfl, _, h2⟩ := List.map_eq_append_iff.1 h1
    refine ⟨x', w, y', rfl, ?_⟩
    have := lower_sameLetters w
    rwa [show asciiLower w = py!"error:" from h2] at this
  · rintro ⟨x, w, y, rfl, h⟩
    refine ⟨asciiLower x, asciiLower y, ?_⟩
    have h1 : asciiLower w = py!"error:" := by rw [sameLetters_lower h]; decide +kernel
    rw [← h1]
    show List.map lowerOne _ = _
    rw [List.map_append, List.map_append]
    rfl

end CPE.MH
