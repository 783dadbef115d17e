import Verif.Spec.SetEnvironment
import Verif.Proofs.Base
/-
Lemmas on the texts handled by the environment operations: references, substrings, path entries.
-/
namespace CPE.SetEnv
open CPE.Spec CPE.SetEnv.Spec

/-! ### references -/

theorem isAsciiWord_iff (c : Char) : isAsciiWord c = true ↔ WordChar c := by
  simp [isAsciiWord, WordChar, Char.isAlphanum, Char.isAlpha, Char.isUpper, Char.isLower, Char.isDigit, Char.le_def,
    Bool.or_eq_true]
  constructor
  · rintro (((h | h) | h) | h)
    · exact .inl (.inl (.inr h))
    · exact .inl (.inl (.inl h))
    · exact .inl (.inr h)
    · exact .inr h
  · rintro (((h | h) | h) | h)
    · exact .inl (.inl (.inr h))
    · exact .inl (.inl (.inl h))
    · exact .inl (.inr h)
    · exact .inr h

theorem expandGo_skip (env : Environ) (k : Nat) (s : Str) : expandGo env k s = expandGo env 0 (s.drop k) := by
  induction s generalizing k with
  | nil => cases k <;> rfl
  | cons c cs ih =>
    cases k with
    | zero => rfl
    | succ k => rw [show expandGo env (k + 1) (c :: cs) = expandGo env k cs from by rw [expandGo], ih]; rfl

theorem takeWhile_append_stop {p : Char → Bool} {a s : Str} (ha : ∀ c ∈ a, p c = true)
    (hs : ∀ c t, s = c :: t → p c = false) : (a ++ s).takeWhile p = a := by
  induction a with
  | nil =>
    cases s with
    | nil => rfl
    | cons c t => simp [hs c t rfl]
  | cons c a ih => simp [ha c (by simp), ih fun x hx => ha x (by simp [hx])]

theorem expandGo_dollar (env : Environ) (cs : Str) : expandGo env 0 ('$' :: cs) =
    match matchRef cs with
    | some (name, len) => (Dict.get? env name).getD ('$' :: cs.take len) ++ expandGo env 0 (cs.drop len)
    | none => '$' :: expandGo env 0 cs := by
  rw [expandGo, if_pos rfl]
  cases matchRef cs with
  | none => rfl
  | some p =>
    obtain ⟨name, len⟩ := p
    dsimp only
    rw [expandGo_skip]
    cases Dict.get? env name <;> rfl

theorem matchRef_braced {name s : Str} (h : '}' ∉ name) :
    matchRef ('{' :: name ++ '}' :: s) = some (name, name.length + 2) := by
  have ht : (name ++ '}' :: s).takeWhile (· ≠ '}') = name :=
    takeWhile_append_stop (fun c hc => by simp; rintro rfl; exact h hc) (by rintro c t ⟨rfl, -⟩; simp)
  show matchRef ('{' :: (name ++ '}' :: s)) = _
  rw [matchRef, if_pos rfl, if_pos (by simp), ht]

theorem matchRef_bare {name s : Str} (hne : name ≠ []) (hw : ∀ c ∈ name, WordChar c)
    (hs : ∀ c t, s = c :: t → ¬ WordChar c) : matchRef (name ++ s) = some (name, name.length) := by
  have ht : (name ++ s).takeWhile isAsciiWord = name :=
    takeWhile_append_stop (fun c hc => (isAsciiWord_iff c).2 (hw c hc)) (fun c t h => by
      have := hs c t h
      rw [← isAsciiWord_iff] at this
      simpa using this)
  cases name with
  | nil => exact absurd rfl hne
  | cons c name =>
    have hc : c ≠ '{' := by
      rintro rfl
      have := hw '{' (by simp)
      rw [← isAsciiWord_iff] at this
      revert this; decide
    show matchRef (c :: (name ++ s)) = _
    rw [matchRef, if_neg hc]
    rw [show c :: (name ++ s) = c :: name ++ s from rfl, ht]
    simp

theorem matchRef_none {s : Str} (h : ¬ StartsRef s) : matchRef s = none := by
  cases s with
  | nil => rfl
  | cons c cs =>
    rw [matchRef]
    split
    · rename_i hc
      rw [if_neg]
      intro hm
      exact h (.inr ⟨cs, by rw [hc], hm⟩)
    · have : isAsciiWord c = false := by
        cases hw : isAsciiWord c with
        | false => rfl
        | true => exact absurd (.inl ⟨c, cs, rfl, (isAsciiWord_iff c).1 hw⟩) h
      simp [this]

theorem expandGo_of_expands {env : Environ} {s r : Str} (h : Expands env s r) : expandGo env 0 s = r := by
  induction h with
  | nil => rfl
  | plain hc _ ih => rw [expandGo, if_neg hc, ih]
  | @braced name s r hn _ ih =>
    show expandGo env 0 ('$' :: '{' :: (name ++ ['}'] ++ s)) = _
    rw [expandGo_dollar]
    have hm : matchRef ('{' :: (name ++ ['}'] ++ s)) = some (name, name.length + 2) := by
      have := matchRef_braced (s := s) hn
      simpa using this
    rw [hm]
    dsimp only
    have hd : ('{' :: (name ++ ['}'] ++ s)).drop (name.length + 2) = s := by simp
    have ht : ('{' :: (name ++ ['}'] ++ s)).take (name.length + 2) = '{' :: name ++ ['}'] := by
      have : '{' :: (name ++ ['}'] ++ s) = ('{' :: name ++ ['}']) ++ s := by simp
      rw [this, List.take_append_of_le_length (by simp), List.take_of_length_le (by simp)]
    rw [hd, ht, ih]
    rfl
  | @bare name s r hne hw hs _ ih =>
    show expandGo env 0 ('$' :: (name ++ s)) = _
    rw [expandGo_dollar, matchRef_bare hne hw hs]
    simp [ih]
  | lone hn _ ih => rw [expandGo_dollar, matchRef_none hn, ih]

theorem expands_total (env : Environ) (s : Str) : ∃ r, Expands env s r := by
  suffices h : ∀ n (s : Str), s.length ≤ n → ∃ r, Expands env s r from h _ s (Nat.le_refl _)
  intro n
  induction n with
  | zero => intro s hs; cases s with
    | nil => exact ⟨[], .nil⟩
    | cons c cs => simp at hs
  | succ n ih =>
    intro s hs
    cases s with
    | nil => exact ⟨[], .nil⟩
    | cons c cs =>
      by_cases hc : c = '$'
      · subst hc
        by_cases hr : StartsRef cs
        · rcases hr with ⟨c, t, rfl, hw⟩ | ⟨t, rfl, ht⟩
          · have hsplit := List.takeWhile_append_dropWhile (p := isAsciiWord) (l := c :: t)
            have hwt : ∀ x ∈ (c :: t).takeWhile isAsciiWord, WordChar x := fun x hx =>
              (isAsciiWord_iff x).1 (List.all_eq_true.1 (List.all_takeWhile) x hx)
            have hne : (c :: t).takeWhile isAsciiWord ≠ [] := by simp [(isAsciiWord_iff c).2 hw]
            have hstop : ∀ x u, (c :: t).dropWhile isAsciiWord = x :: u → ¬ WordChar x := by
              intro x u hx
              have := dropWhile_head hx
              rw [← isAsciiWord_iff, this]; simp
            have hlen : ((c :: t).dropWhile isAsciiWord).length ≤ n := by
              have := congrArg List.length hsplit
              rw [List.length_append] at this
              simp only [List.length_cons] at this hs
              omega
            obtain ⟨r, hr⟩ := ih _ hlen
            have := Expands.bare hne hwt hstop hr
            rw [List.append_assoc, hsplit] at this
            exact ⟨_, this⟩
          · obtain ⟨name, rest, rfl, hn⟩ : ∃ name rest, t = name ++ '}' :: rest ∧ '}' ∉ name := by
              clear hs ih
              induction t with
              | nil => cases ht
              | cons x t iht =>
                by_cases hx : x = '}'
                · exact ⟨[], t, by simp [hx], by simp⟩
                · obtain ⟨a, b, rfl, hab⟩ := iht (by simpa [Ne.symm hx] using ht)
                  exact ⟨x :: a, b, rfl, by simp [Ne.symm hx, hab]⟩
            obtain ⟨r, hr⟩ := ih rest (by simp at hs; omega)
            have := Expands.braced hn hr
            have heq : (py!"${" ++ name ++ py!"}" ++ rest) = '$' :: '{' :: (name ++ '}' :: rest) := by simp
            rw [heq] at this
            exact ⟨_, this⟩
        · obtain ⟨r, hr'⟩ := ih cs (by simpa using hs)
          exact ⟨_, .lone hr hr'⟩
      · obtain ⟨r, hr⟩ := ih cs (by simpa using hs)
        exact ⟨_, .plain hc hr⟩

theorem expandGo_plain (env : Environ) {s : Str} (h : '$' ∉ s) : expandGo env 0 s = s := by
  induction s with
  | nil => rfl
  | cons c cs ih =>
    simp only [List.mem_cons, not_or] at h
    rw [expandGo, if_neg (Ne.symm h.1), ih h.2]

theorem expandvars_eq (env : Environ) (s : Str) : expandvars env s = expandGo env 0 s := by
  unfold expandvars
  split
  · rfl
  · rename_i h; exact (expandGo_plain env h).symm

theorem expands_iff (env : Environ) (s r : Str) : Expands env s r ↔ r = expandvars env s := by
  rw [expandvars_eq]
  constructor
  · exact fun h => (expandGo_of_expands h).symm
  · rintro rfl
    obtain ⟨r, hr⟩ := expands_total env s
    rw [expandGo_of_expands hr]
    exact hr

/-! ### substrings -/

theorem removeGo_skip (sub : Str) (k : Nat) (s : Str) : removeGo sub k s = removeGo sub 0 (s.drop k) := by
  induction s generalizing k with
  | nil => cases k <;> rfl
  | cons c cs ih =>
    cases k with
    | zero => rfl
    | succ k => rw [show removeGo sub (k + 1) (c :: cs) = removeGo sub k cs from by rw [removeGo], ih]; rfl

theorem removeGo_hit {sub : Str} (hne : sub ≠ []) (s : Str) : removeGo sub 0 (sub ++ s) = removeGo sub 0 s := by
  cases sub with
  | nil => exact absurd rfl hne
  | cons c sub =>
    rw [List.cons_append, removeGo, if_pos (by simp), removeGo_skip]
    simp

theorem removeGo_of_removed {sub s r : Str} (hne : sub ≠ []) (h : Removed sub s r) : removeGo sub 0 s = r := by
  induction h with
  | nil => rfl
  | hit _ ih => rw [removeGo_hit hne, ih]
  | miss hm _ ih => rw [removeGo, if_neg (by simpa using hm), ih]

theorem removed_total {sub : Str} (hne : sub ≠ []) (s : Str) : ∃ r, Removed sub s r := by
  suffices h : ∀ n (s : Str), s.length ≤ n → ∃ r, Removed sub s r from h _ s (Nat.le_refl _)
  intro n
  induction n with
  | zero => intro s hs; cases s with
    | nil => exact ⟨[], .nil⟩
    | cons c cs => simp at hs
  | succ n ih =>
    intro s hs
    cases s with
    | nil => exact ⟨[], .nil⟩
    | cons c cs =>
      by_cases hp : sub <+: c :: cs
      · obtain ⟨t, ht⟩ := hp
        have hl : 0 < sub.length := List.length_pos_iff.2 hne
        obtain ⟨r, hr⟩ := ih t (by have := congrArg List.length ht; simp at this hs; omega)
        rw [← ht]
        exact ⟨r, .hit hr⟩
      · obtain ⟨r, hr⟩ := ih cs (by simpa using hs)
        exact ⟨_, .miss hp hr⟩

theorem removed_iff {sub : Str} (hne : sub ≠ []) (s r : Str) : Removed sub s r ↔ r = removeSubstr sub s := by
  unfold removeSubstr
  rw [if_neg hne]
  constructor
  · exact fun h => (removeGo_of_removed hne h).symm
  · rintro rfl
    obtain ⟨r, hr⟩ := removed_total hne s
    rw [removeGo_of_removed hne hr]
    exact hr

/-! ### entries -/

theorem joinStr_cons_cons (sep x y : Str) (xs : List Str) :
    joinStr sep (x :: y :: xs) = x ++ sep ++ joinStr sep (y :: xs) := joinStr.eq_3 sep x (y :: xs) (by simp)

theorem splitChar_ne_nil (sep : Char) (s : Str) : splitChar sep s ≠ [] := by
  cases s with
  | nil => simp [splitChar]
  | cons c cs =>
    rw [splitChar]
    split
    · simp
    · split <;> simp

theorem joinStr_splitChar (sep : Char) (s : Str) : joinStr [sep] (splitChar sep s) = s := by
  induction s with
  | nil => rfl
  | cons c cs ih =>
    rw [splitChar]
    have hne := splitChar_ne_nil sep cs
    cases hs : splitChar sep cs with
    | nil => exact absurd hs hne
    | cons w ws =>
      rw [hs] at ih
      split
      · rename_i hc
        rw [joinStr_cons_cons, ih, hc]
        rfl
      · cases ws with
        | nil => simp only [joinStr] at ih ⊢; rw [ih]
        | cons w' ws => rw [joinStr_cons_cons] at ih ⊢; rw [← ih]; rfl

theorem splitChar_not_mem (sep : Char) (s : Str) : ∀ e ∈ splitChar sep s, sep ∉ e := by
  induction s with
  | nil => intro e he; simp [splitChar] at he; simp [he]
  | cons c cs ih =>
    rw [splitChar]
    split
    · intro e he
      simp only [List.mem_cons] at he
      rcases he with rfl | he
      · simp
      · exact ih e he
    · rename_i hc
      cases hs : splitChar sep cs with
      | nil => intro e he; simp at he; simp [he, Ne.symm hc]
      | cons w ws =>
        rw [hs] at ih
        intro e he
        simp only [List.mem_cons] at he
        rcases he with rfl | he
        · have := ih w (by simp)
          simp [Ne.symm hc, this]
        · exact ih e (by simp [he])

theorem splitChar_plain {sep : Char} {s : Str} (h : sep ∉ s) : splitChar sep s = [s] := by
  induction s with
  | nil => rfl
  | cons c cs ih =>
    simp only [List.mem_cons, not_or] at h
    rw [splitChar, if_neg (Ne.symm h.1), ih h.2]

theorem splitChar_append {sep : Char} {a : Str} (h : sep ∉ a) (b : Str) :
    splitChar sep (a ++ sep :: b) = a :: splitChar sep b := by
  induction a with
  | nil => simp [splitChar]
  | cons c a ih =>
    simp only [List.mem_cons, not_or] at h
    rw [List.cons_append, splitChar, if_neg (Ne.symm h.1), ih h.2]

theorem splitChar_joinStr {sep : Char} {es : List Str} (hne : es ≠ []) (h : ∀ e ∈ es, sep ∉ e) :
    splitChar sep (joinStr [sep] es) = es := by
  induction es with
  | nil => exact absurd rfl hne
  | cons e es ih =>
    cases es with
    | nil => exact splitChar_plain (h e (by simp))
    | cons e' es =>
      rw [joinStr_cons_cons, List.append_assoc]
      rw [show [sep] ++ joinStr [sep] (e' :: es) = sep :: joinStr [sep] (e' :: es) from rfl,
        splitChar_append (h e (by simp)), ih (by simp) fun x hx => h x (by simp [List.mem_cons.1 hx])]

theorem isSubstr_iff (m v : Str) : isSubstr m v = true ↔ ∃ x y, v = x ++ m ++ y := by
  induction v with
  | nil =>
    simp [isSubstr, List.isEmpty_iff]
  | cons c cs ih =>
    rw [isSubstr, Bool.or_eq_true, ih]
    constructor
    · rintro (h | ⟨x, y, h⟩)
      · obtain ⟨t, ht⟩ := List.isPrefixOf_iff_prefix.1 h
        exact ⟨[], t, by simp [ht]⟩
      · exact ⟨c :: x, y, by simp [h]⟩
    · rintro ⟨x, y, h⟩
      cases x with
      | nil => exact .inl (List.isPrefixOf_iff_prefix.2 ⟨y, by simpa using h.symm⟩)
      | cons d x =>
        simp only [List.cons_append, List.cons.injEq] at h
        exact .inr ⟨x, y, h.2⟩

/-! ### dictionaries -/

theorem get?_dictDel_self (d : Environ) (k : Str) : Dict.get? (dictDel d k) k = none := by
  induction d with
  | nil => rfl
  | cons kv d ih =>
    unfold dictDel at ih ⊢
    by_cases h : kv.1 = k
    · simp [h]; simpa using ih
    · simp [h, Dict.get?]; simpa using ih

theorem get?_dictDel_ne (d : Environ) {k m : Str} (h : m ≠ k) : Dict.get? (dictDel d k) m = Dict.get? d m := by
  induction d with
  | nil => rfl
  | cons kv d ih =>
    unfold dictDel at ih ⊢
    by_cases hk : kv.1 = k
    · have : kv.1 ≠ m := fun e => h (e.symm.trans hk)
      simp only [hk, ne_eq, not_true, decide_false, Bool.false_eq_true, not_false_eq_true, List.filter_cons_of_neg]
      rw [ih, show Dict.get? (kv :: d) m = if kv.1 = m then some kv.2 else Dict.get? d m from rfl, if_neg this]
    · simp [hk, Dict.get?]
      split
      · rfl
      · simpa using ih

end CPE.SetEnv
