import Verif.Proofs.Quotes
/-
The other direction of C77: what the model of Bash reads in double quotes is what the specification says.
-/
namespace CPE.SetEnv.Bash
open CPE CPE.SetEnv CPE.SetEnv.Spec

theorem Enclosed.tail {c : Char} {s : Str} (h : Enclosed (c :: s)) (hc : c ≠ '\\') : Enclosed s := by
  cases h with
  | char _ h => exact h
  | pair _ _ => exact absurd rfl hc

theorem Enclosed.drop {u s : Str} (h : Enclosed (u ++ s)) (hu : '\\' ∉ u) : Enclosed s := by
  induction u with
  | nil => exact h
  | cons c u ih =>
    exact ih (Enclosed.tail h (by rintro rfl; exact hu (.head _))) fun hm => hu (.tail _ hm)

theorem Enclosed.passes {w : Str} (h : Enclosed w) : Passes w := by
  induction h with
  | nil => exact .nil
  | @char c s hc _ ih =>
    refine (Passes.char (c := c) fun hb => hc ?_).append ih
    simp only [List.mem_cons, List.not_mem_nil, or_false] at hb ⊢
    rcases hb with h | h | h | h <;> simp [h]
  | @pair c s hc _ ih =>
    exact (Passes.escape (c := c) (by rintro rfl; exact hc (by decide))).append ih

theorem takeWhile_append_dropWhile' (p : Char → Bool) (l : Str) : l = l.takeWhile p ++ l.dropWhile p :=
  (List.takeWhile_append_dropWhile).symm

theorem mem_takeWhile {p : Char → Bool} {l : Str} {c : Char} (h : c ∈ l.takeWhile p) : p c = true := by
  induction l with
  | nil => simp at h
  | cons a l ih =>
    rw [List.takeWhile_cons] at h
    split at h
    · rcases List.mem_cons.1 h with rfl | h
      · assumption
      · exact ih h
    · simp at h

theorem dropWhile_head {p : Char → Bool} {l : Str} {c : Char} {r : Str} (h : l.dropWhile p = c :: r) : p c = false := by
  induction l with
  | nil => simp at h
  | cons a l ih =>
    rw [List.dropWhile_cons] at h
    split at h
    · exact ih h
    · cases h
      exact Bool.eq_false_iff.2 ‹¬ p _ = true›

/-- What a `$` stands for. -/
theorem readRef_cases {cs : Str} {r : Option (Str × Nat)} (h : readRef cs = some r) :
    (r = none ∧ ∀ c t, cs = c :: t → AfterDollar c) ∨
    (∃ x s, r = some (x, x.length + 2) ∧ cs = '{' :: (x ++ '}' :: s) ∧ Identifier x) ∨
    (∃ x s, r = some (x, x.length) ∧ cs = x ++ s ∧ Identifier x ∧ ∀ c t, s = c :: t → ¬ WordChar c) := by
  cases cs with
  | nil =>
    left
    simp only [readRef, Option.some.injEq] at h
    exact ⟨h.symm, fun c t e => by cases e⟩
  | cons c cs =>
    unfold readRef at h
    dsimp only at h
    split at h
    · rename_i hc
      subst hc
      split at h
      · rename_i hb
        right; left
        have hsplit := takeWhile_append_dropWhile' (· ≠ '}') cs
        cases hd : cs.dropWhile (· ≠ '}') with
        | nil =>
          rw [hd, List.append_nil] at hsplit
          rw [hsplit] at hb
          exact absurd (mem_takeWhile hb.1) (by simp)
        | cons d s =>
          have hd' := dropWhile_head hd
          simp only [ne_eq, decide_not, Bool.not_eq_eq_eq_not, Bool.not_false, decide_eq_true_eq] at hd'
          subst hd'
          refine ⟨cs.takeWhile (· ≠ '}'), s, (by simpa using h.symm), ?_, (isIdent_iff _).1 hb.2⟩
          rw [← hd, ← hsplit]
      · cases h
    · rename_i hc
      split at h
      · cases h
      · rename_i hd
        have hd : dollarChar c = false := by simpa using hd
        unfold dollarChar at hd
        simp only [Bool.or_eq_false_iff, beq_eq_false_iff_ne] at hd
        obtain ⟨⟨⟨⟨⟨⟨⟨⟨⟨⟨⟨⟨g1, g2⟩, g3⟩, g4⟩, g5⟩, g6⟩, g7⟩, g8⟩, g9⟩, g10⟩, g11⟩, g12⟩, g13⟩ := hd
        split at h
        · rename_i hn
          left
          refine ⟨by simpa using h.symm, ?_⟩
          rintro _ _ ⟨⟩
          refine ⟨fun hw => ?_, by simp [*]⟩
          rw [List.takeWhile_cons, if_pos ((isAsciiWord_iff c).2 hw)] at hn
          cases hn
        · rename_i hn
          right; right
          refine ⟨(c :: cs).takeWhile isAsciiWord, (c :: cs).dropWhile isAsciiWord, by simpa using h.symm,
            takeWhile_append_dropWhile' _ _, ⟨?_, fun d hd => (isAsciiWord_iff d).1 (mem_takeWhile hd)⟩, ?_⟩
          · rw [List.takeWhile_cons] at hn ⊢
            split
            · exact ⟨c, _, rfl, g13⟩
            · rename_i hw
              rw [if_neg hw] at hn
              exact absurd rfl hn
          · intro d t e hw
            have := dropWhile_head e
            rw [(isAsciiWord_iff d).2 hw] at this
            cases this

theorem map_some {α β : Type} {f : α → β} {o : Option α} {y : β} (h : o.map f = some y) : ∃ x, o = some x ∧ y = f x := by
  cases o with
  | none => cases h
  | some x => exact ⟨x, rfl, by simpa using h.symm⟩

theorem identifier_no_backslash {x : Str} (h : Identifier x) : '\\' ∉ x :=
  fun hc => absurd (h.2 _ hc) (by decide)

theorem quoted_of_expandGo {env : Environ} (k : Nat) {w x : Str} (hk : w.length ≤ k) (hi : Enclosed w)
    (h : expandGo env 0 w = some x) : Quoted env w x := by
  induction k generalizing w x with
  | zero =>
    cases w with
    | nil => cases h; exact .nil
    | cons => simp at hk
  | succ k ih =>
    cases w with
    | nil => cases h; exact .nil
    | cons c cs =>
      have hk' : cs.length ≤ k := by simpa using hk
      unfold expandGo at h
      split at h
      · rename_i hc
        subst hc
        have hics := Enclosed.tail hi (by decide)
        cases hr : readRef cs with
        | none => rw [hr] at h; cases h
        | some r =>
          rw [hr] at h
          rcases readRef_cases hr with ⟨rfl, ha⟩ | ⟨x', s, rfl, rfl, hid⟩ | ⟨x', s, rfl, rfl, hid, hs⟩
          · obtain ⟨t, ht, rfl⟩ := map_some h
            exact .lone ha (ih hk' hics ht)
          · dsimp only at h
            rw [expandGo_skip, show ('{' :: (x' ++ '}' :: s)).drop (x'.length + 2) = s by simp] at h
            obtain ⟨t, ht, rfl⟩ := map_some h
            have hs : Enclosed s := Enclosed.drop (u := '{' :: x' ++ ['}']) (by simpa using hics) (by
              have := identifier_no_backslash hid
              simp [this])
            have := ih (by simp at hk'; omega) hs ht
            have q := Quoted.braced hid this
            simpa using q
          · dsimp only at h
            rw [expandGo_skip, List.drop_left] at h
            obtain ⟨t, ht, rfl⟩ := map_some h
            have hs' : Enclosed s := Enclosed.drop hics (identifier_no_backslash hid)
            have := ih (by simp at hk'; omega) hs' ht
            have q := Quoted.bare hid hs this
            simpa using q
      · rename_i hc
        split at h
        · rename_i hc'
          subst hc'
          cases hi with
          | char hb _ => exact absurd hb (by decide)
          | @pair d s hd his =>
            simp only [List.mem_cons, List.not_mem_nil, or_false, not_or] at hd
            by_cases hu : d = '$' ∨ d = '`' ∨ d = '"' ∨ d = '\\'
            · have he : escapable (d :: s) = some d := by unfold escapable; exact if_pos hu
              rw [he] at h
              obtain ⟨t, ht, rfl⟩ := map_some h
              rw [expandGo_skip] at ht
              refine .dropped ?_ (ih (by simp at hk'; omega) his ht)
              rcases hu with rfl | rfl | rfl | rfl <;> decide
            · have he : escapable (d :: s) = none := by unfold escapable; exact if_neg hu
              rw [he] at h
              obtain ⟨t, ht, rfl⟩ := map_some h
              unfold expandGo at ht
              simp only [not_or] at hu
              rw [if_neg hu.1, if_neg hu.2.2.2] at ht
              obtain ⟨t', ht', rfl⟩ := map_some ht
              refine .kept ?_ (ih (by simp at hk'; omega) his ht')
              simp [hu, hd]
        · rename_i hc'
          obtain ⟨t, ht, rfl⟩ := map_some h
          cases hi with
          | char hb his =>
            refine .plain ?_ (ih hk' his ht)
            simp only [List.mem_cons, List.not_mem_nil, or_false, not_or] at hb ⊢
            simp [hb, hc]
          | pair => exact absurd rfl hc'

/-- A command with a text that Bash cannot read is not carried out. -/
theorem exec_unread {tools : Tools} {env : Environ} {op n w : Str} (hop : op ∈ opNames) (hn : ∀ c ∈ n, WordChar c)
    (hc : Closed w) (h : expandGo env 0 w = none) :
    exec tools (joinStr py!" " (py!"envvar_op" :: op :: [n, w].map fun w => py!"\"" ++ w ++ py!"\"")) env =
      notModelled env := by
  have hn' := means_self hn env
  have hrd : readWords (.gap []) (joinStr py!" " (py!"envvar_op" :: op :: [n, w].map fun w => py!"\"" ++ w ++ py!"\"")) =
      some (⟨false, py!"envvar_op"⟩ :: ⟨false, op⟩ :: [n, w].map fun w => ⟨true, w⟩) := by
    have := readWords_join [] (ws := ⟨false, py!"envvar_op"⟩ :: ⟨false, op⟩ :: [n, w].map fun w => ⟨true, w⟩) (by
      intro u hu
      rcases List.mem_cons.1 hu with rfl | hu
      · show _ ≠ [] ∧ _; decide +kernel
      · rcases List.mem_cons.1 hu with rfl | hu
        · exact opName_bare hop
        · simp only [List.map_cons, List.map_nil, List.mem_cons, List.not_mem_nil, or_false] at hu
          rcases hu with rfl | rfl
          · exact readWords_quot (means_chars hn')
          · exact hc)
    rw [List.nil_append] at this
    rw [← this]
    congr 2
  have hex : expandWords env (⟨false, py!"envvar_op"⟩ :: ⟨false, op⟩ :: [n, w].map fun w => ⟨true, w⟩) = none := by
    have h1 : expandGo env 0 n = some n := expandGo_of_means hn'
    simp [expandWords, h, h1]
  unfold exec
  rw [hrd]
  dsimp only
  rw [hex]

end CPE.SetEnv.Bash
