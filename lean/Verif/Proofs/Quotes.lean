import Verif.Spec.Quotes
import Verif.Proofs.BashScript
import Verif.Proofs.Literal
/-
Proofs about texts that Bash reads between double quotes, for C77.
-/
namespace CPE.SetEnv.Bash
open CPE.Spec CPE.SetEnv CPE.SetEnv.Spec

/-! ### Reading -/

/-- The text `u` does not end the word. -/
def Passes (u : Str) : Prop :=
  ∀ (done : List Word) (cur rest : Str),
    readWords (.quot done cur) (u ++ rest) = readWords (.quot done (cur ++ u)) rest

theorem Passes.nil : Passes [] := by intro done cur rest; simp

theorem Passes.append {u v : Str} (hu : Passes u) (hv : Passes v) : Passes (u ++ v) := by
  intro done cur rest
  rw [List.append_assoc, hu, hv, List.append_assoc]

theorem Passes.closed {u : Str} (h : Passes u) : Closed u := by
  intro done cur rest
  rw [h, readWords, if_pos rfl]

theorem Passes.char {c : Char} (h : c ∉ py!"`\"\\\u0000") : Passes [c] := by
  intro done cur rest
  simp only [List.mem_cons, List.not_mem_nil, or_false, not_or] at h
  obtain ⟨h1, h2, h3, h4⟩ := h
  show readWords (.quot done cur) (c :: rest) = _
  rw [readWords, if_neg h2, if_neg h3, if_neg (by rintro (h | h); exact h1 h; exact h4 h)]

theorem Passes.chars {u : Str} (h : ∀ c ∈ u, c ∉ py!"`\"\\\u0000") : Passes u := by
  induction u with
  | nil => exact .nil
  | cons c u ih => exact (Passes.char (h c (.head _))).append (ih fun d hd => h d (.tail _ hd))

theorem Passes.escape {c : Char} (h : c ≠ Char.ofNat 0) : Passes ['\\', c] := by
  intro done cur rest
  show readWords (.quot done cur) ('\\' :: c :: rest) = _
  rw [readWords, if_neg (by decide), if_pos rfl, readWords, if_neg h, List.append_assoc]
  rfl

theorem wordChar_passes {x : Str} (h : ∀ c ∈ x, WordChar c) : Passes x :=
  .chars fun c hc hb => by
    have := h c hc
    simp only [List.mem_cons, List.not_mem_nil, or_false] at hb
    rcases hb with rfl | rfl | rfl | rfl <;> exact absurd this (by decide)

theorem passes_of_quoted {env : Environ} {w x : Str} (h : Quoted env w x) : Passes w := by
  induction h with
  | nil => exact .nil
  | @plain c s t hc _ ih =>
    refine (Passes.char (c := c) fun hb => hc ?_).append ih
    simp only [List.mem_cons, List.not_mem_nil, or_false] at hb ⊢
    rcases hb with h | h | h | h <;> simp [h]
  | braced hx _ ih =>
    exact (((Passes.chars (by decide)).append (wordChar_passes hx.2)).append (.char (by decide))).append ih
  | bare hx _ _ ih => exact ((Passes.char (by decide)).append (wordChar_passes hx.2)).append ih
  | lone _ _ ih => exact (Passes.char (c := '$') (by decide)).append ih
  | @dropped c s t hc _ ih =>
    refine (Passes.escape (c := c) ?_).append ih
    rintro rfl
    exact absurd hc (by decide)
  | @kept c s t hc _ ih =>
    refine (Passes.escape (c := c) ?_).append ih
    rintro rfl
    exact absurd hc (by decide)

theorem expandGo_of_quoted {env : Environ} {w x : Str} (h : Quoted env w x) : expandGo env 0 w = some x := by
  induction h with
  | nil => rfl
  | @plain c s t hc _ ih =>
    simp only [List.mem_cons, List.not_mem_nil, or_false, not_or] at hc
    unfold expandGo
    rw [if_neg hc.1, if_neg hc.2.2.2.1, ih]
    rfl
  | @braced x s t hx _ ih =>
    have e : py!"${" ++ x ++ py!"}" ++ s = '$' :: ('{' :: x ++ '}' :: s) := by simp
    rw [e]
    unfold expandGo
    rw [if_pos rfl, readRef_braced hx]
    dsimp only
    rw [expandGo_skip, show ('{' :: x ++ '}' :: s).drop (x.length + 2) = s by simp, ih]
    rfl
  | @bare x s t hx hs _ ih =>
    have e : py!"$" ++ x ++ s = '$' :: (x ++ s) := by simp
    rw [e]
    unfold expandGo
    rw [if_pos rfl, readRef_bare hx hs]
    dsimp only
    rw [expandGo_skip, List.drop_left, ih]
    rfl
  | @lone s t hs _ ih =>
    unfold expandGo
    rw [if_pos rfl, readRef_lone hs]
    dsimp only
    rw [ih]
    rfl
  | @dropped c s t hc _ ih =>
    have he : escapable (c :: s) = some c := by
      simp only [unescaped, List.mem_cons, List.not_mem_nil, or_false] at hc
      unfold escapable
      dsimp only
      rw [if_pos hc]
    unfold expandGo
    rw [if_neg (by decide), if_pos rfl, he]
    dsimp only
    rw [expandGo_skip, List.drop_one, List.tail_cons, ih]
    rfl
  | @kept c s t hc _ ih =>
    simp only [List.mem_cons, List.not_mem_nil, or_false, not_or] at hc
    have he : escapable (c :: s) = none := by
      unfold escapable
      dsimp only
      rw [if_neg]
      rintro (h | h | h | h)
      · exact hc.1 h
      · exact hc.2.1 h
      · exact hc.2.2.1 h
      · exact hc.2.2.2.1 h
    unfold expandGo
    rw [if_neg (by decide), if_pos rfl, he]
    dsimp only
    unfold expandGo
    rw [if_neg hc.1, if_neg hc.2.2.2.1, ih]
    rfl

theorem readsAs_of_quoted {env : Environ} {w x : Str} (h : Quoted env w x) : ReadsAs env w x :=
  ⟨expandGo_of_quoted h, (passes_of_quoted h).closed⟩

theorem quoted_no_lineEnd {env : Environ} {w x : Str} (h : Quoted env w x) : '\n' ∉ w := by
  have hid : ∀ {x : Str}, Identifier x → '\n' ∉ x := fun hx h => absurd (hx.2 _ h) (by decide)
  induction h with
  | nil => simp
  | @plain c s t hc _ ih =>
    simp only [List.mem_cons, List.not_mem_nil, or_false, not_or] at hc ⊢
    exact ⟨Ne.symm hc.2.2.2.2.1, ih⟩
  | braced hx _ ih => simp [hid hx, ih]
  | bare hx _ _ ih => simp [hid hx, ih]
  | lone _ _ ih => simp [ih]
  | @dropped c s t hc _ ih =>
    simp only [List.mem_cons, not_or]
    refine ⟨by decide, ?_, ih⟩
    rintro rfl
    exact absurd hc (by decide)
  | @kept c s t hc _ ih =>
    simp only [List.mem_cons, List.not_mem_nil, or_false, not_or] at hc ⊢
    exact ⟨by decide, Ne.symm hc.2.2.2.2.1, ih⟩

/-- Texts on which both languages agree are among them. -/
theorem quoted_of_means {env : Environ} {w x : Str} (h : Means env w x) : Quoted env w x := by
  induction h with
  | nil => exact .nil
  | @plain c s t h1 h2 _ ih =>
    refine .plain ?_ ih
    simp only [badInQuotes, List.mem_cons, List.not_mem_nil, or_false, not_or] at h2 ⊢
    exact ⟨h1, h2.2.2.1, h2.1, h2.2.1, h2.2.2.2.1, h2.2.2.2.2.2⟩
  | @braced x v s t hx hv _ ih =>
    have := Quoted.braced hx ih
    rw [hv] at this
    exact this
  | @bare x v s t hx hs hv _ ih =>
    have := Quoted.bare hx hs ih
    rw [hv] at this
    exact this
  | lone hs _ ih => exact .lone hs ih

/-! ### Bash and Python -/

theorem neutral_quoted (env : Environ) {w x : Str} (h : Neutral w x) : Quoted env w x := by
  induction h with
  | nil => exact .nil
  | @char c s t hc _ ih =>
    refine .plain (fun hb => hc ?_) ih
    simp only [List.mem_cons, List.not_mem_nil, or_false] at hb ⊢
    rcases hb with h | h | h | h | h | h <;> simp [h]
  | @dropped c s t hc _ ih =>
    refine .dropped ?_ ih
    simp only [List.mem_cons, List.not_mem_nil, or_false] at hc
    rcases hc with rfl | rfl <;> decide
  | @kept c s t h1 h2 _ ih =>
    refine .kept (fun hb => ?_) ih
    simp only [List.mem_cons, List.not_mem_nil, or_false] at hb
    rcases hb with rfl | rfl | rfl | rfl | rfl | rfl
    · exact h2 (by decide)
    · exact h2 (by decide)
    · exact h1 (by decide)
    · exact h1 (by decide)
    · exact h1 (by decide)
    · exact h1 (by decide)

theorem neutral_literal {w x : Str} (h : Neutral w x) : Literal w x := by
  induction h with
  | nil => exact .nil
  | @char c s t hc _ ih =>
    refine Literal.cons (p := [c]) (x := [c]) (.char fun hb => hc ?_) ih
    simp only [List.mem_cons, List.not_mem_nil, or_false] at hb ⊢
    rcases hb with h | h | h | h | h <;> simp [h]
  | @dropped c s t hc _ ih =>
    refine Literal.cons (p := ['\\', c]) (x := [c]) (.one ?_) ih
    simp only [List.mem_cons, List.not_mem_nil, or_false] at hc
    rcases hc with rfl | rfl <;> decide
  | @kept c s t h1 _ _ ih => exact Literal.cons (p := ['\\', c]) (x := ['\\', c]) (.unknown h1) ih

theorem neutral_chars {w x : Str} (h : Neutral w x) (hn : Char.ofNat 0 ∉ w) : '$' ∉ x ∧ Char.ofNat 0 ∉ x := by
  induction h with
  | nil => simp
  | @char c s t hc _ ih =>
    simp only [List.mem_cons, List.not_mem_nil, or_false, not_or] at hc hn ⊢
    exact ⟨⟨Ne.symm hc.1, (ih hn.2).1⟩, hn.1, (ih hn.2).2⟩
  | @dropped c s t hc _ ih =>
    simp only [List.mem_cons, List.not_mem_nil, or_false, not_or] at hn hc ⊢
    refine ⟨⟨?_, (ih hn.2.2).1⟩, hn.2.1, (ih hn.2.2).2⟩
    rintro rfl
    rcases hc with h | h <;> exact absurd h (by decide)
  | @kept c s t h1 h2 _ ih =>
    simp only [List.mem_cons, List.not_mem_nil, or_false, not_or] at hn h2 ⊢
    exact ⟨⟨by decide, Ne.symm h2.1, (ih hn.2.2).1⟩, by decide, hn.2.1, (ih hn.2.2).2⟩

/-- What Bash does with the first character of a text without `$`. -/
theorem quoted_cases {env : Environ} {w x : Str} (h : Quoted env w x) (hd : '$' ∉ w) :
    (w = [] ∧ x = []) ∨
    (∃ c s t, w = c :: s ∧ x = c :: t ∧ c ∉ py!"$`\"\\\n\u0000" ∧ Quoted env s t) ∨
    (∃ c s t, w = '\\' :: c :: s ∧ x = c :: t ∧ c ∈ unescaped ∧ Quoted env s t) ∨
    (∃ c s t, w = '\\' :: c :: s ∧ x = '\\' :: c :: t ∧ c ∉ py!"$`\"\\\n\u0000" ∧ Quoted env s t) := by
  cases h with
  | nil => exact .inl ⟨rfl, rfl⟩
  | plain hc h => exact .inr (.inl ⟨_, _, _, rfl, rfl, hc, h⟩)
  | braced => exact absurd (by simp) hd
  | bare => exact absurd (by simp) hd
  | lone => exact absurd (by simp) hd
  | dropped hc h => exact .inr (.inr (.inl ⟨_, _, _, rfl, rfl, hc, h⟩))
  | kept hc h => exact .inr (.inr (.inr ⟨_, _, _, rfl, rfl, hc, h⟩))

theorem quoted_plain {env : Environ} {u w x : Str} (hu : ∀ c ∈ u, c ∉ py!"$`\"\\\n\u0000") (h : Quoted env (u ++ w) x)
    (hd : '$' ∉ w) : ∃ t, x = u ++ t ∧ Quoted env w t := by
  induction u generalizing x with
  | nil => exact ⟨x, rfl, h⟩
  | cons c u ih =>
    have hc := hu c (.head _)
    have hcd : c ≠ '\\' := by rintro rfl; exact hc (by decide)
    have hd' : '$' ∉ c :: u ++ w := by
      simp only [List.mem_append, not_or]
      refine ⟨fun hm => hu _ hm (by decide), hd⟩
    rcases quoted_cases h hd' with ⟨h1, _⟩ | ⟨c', s, t, h1, rfl, _, hq⟩ | ⟨c', s, t, h1, _⟩ | ⟨c', s, t, h1, _⟩
    · cases h1
    · cases h1
      obtain ⟨r, rfl, hr⟩ := ih (fun d hd => hu d (.tail _ hd)) hq
      exact ⟨r, rfl, hr⟩
    · exact absurd (List.cons.inj h1).1 hcd
    · exact absurd (List.cons.inj h1).1 hcd

theorem quoted_kept {env : Environ} {c : Char} {w x : Str} (hc : c ∉ py!"$`\"\\\n\u0000") (h : Quoted env ('\\' :: c :: w) x)
    (hd : '$' ∉ w) : ∃ t, x = '\\' :: c :: t ∧ Quoted env w t := by
  have hd' : '$' ∉ '\\' :: c :: w := by
    simp only [List.mem_cons, not_or]
    exact ⟨by decide, fun e => hc (e ▸ by decide), hd⟩
  rcases quoted_cases h hd' with ⟨h1, _⟩ | ⟨c', s, t, h1, _, h2, _⟩ | ⟨c', s, t, h1, _, h2, _⟩ | ⟨c', s, t, h1, rfl, _, hq⟩
  · cases h1
  · cases h1; exact absurd (by decide) h2
  · cases h1
    refine absurd ?_ hc
    simp only [unescaped, List.mem_cons, List.not_mem_nil, or_false] at h2 ⊢
    rcases h2 with h | h | h | h <;> simp [h]
  · cases h1; exact ⟨t, rfl, hq⟩

theorem quoted_dropped {env : Environ} {c : Char} {w x : Str} (hc : c ∈ ['\\', '"']) (h : Quoted env ('\\' :: c :: w) x)
    (hd : '$' ∉ w) : ∃ t, x = c :: t ∧ Quoted env w t := by
  have hd' : '$' ∉ '\\' :: c :: w := by
    simp only [List.mem_cons, not_or]
    refine ⟨by decide, ?_, hd⟩
    rintro rfl
    exact absurd hc (by decide)
  rcases quoted_cases h hd' with ⟨h1, _⟩ | ⟨c', s, t, h1, _, h2, _⟩ | ⟨c', s, t, h1, rfl, _, hq⟩ | ⟨c', s, t, h1, _, h2, _⟩
  · cases h1
  · cases h1; exact absurd (by decide) h2
  · cases h1; exact ⟨t, rfl, hq⟩
  · cases h1
    refine absurd ?_ h2
    simp only [List.mem_cons, List.not_mem_nil, or_false] at hc ⊢
    rcases hc with h | h <;> simp [h]

theorem digit_plain {c : Char} (h : digitVal c < 16) : c ∉ py!"$`\"\\\n\u0000" := by
  intro hb
  simp only [List.mem_cons, List.not_mem_nil, or_false] at hb
  rcases hb with rfl | rfl | rfl | rfl | rfl | rfl <;> exact absurd h (by decide)

/-- What Python makes of a text without `$` and backquotes is no longer than what Bash makes of it, and is shorter if the
text has a backslash that only Python gives a meaning to. -/
theorem neutral_of_length {env : Environ} {w y : Str} (h : Literal w y) {x : Str} (hq : Quoted env w x) (hd : '$' ∉ w)
    (hb : '`' ∉ w) : y.length ≤ x.length ∧ (y.length = x.length → Neutral w x) := by
  induction h generalizing x with
  | nil =>
    rcases quoted_cases hq hd with ⟨_, rfl⟩ | ⟨_, _, _, h1, _⟩ | ⟨_, _, _, h1, _⟩ | ⟨_, _, _, h1, _⟩
    · exact ⟨Nat.le_refl _, fun _ => .nil⟩
    all_goals cases h1
  | @cons p px t y hp _ ih =>
    simp only [List.mem_append, not_or] at hd hb
    have fin : ∀ {u r : Str}, x = u ++ r → Quoted env t r → px.length < u.length →
        (px ++ y).length ≤ x.length ∧ ((px ++ y).length = x.length → Neutral (p ++ t) x) := by
      rintro u r rfl hr hlt
      have := (ih hr hd.2 hb.2).1
      simp only [List.length_append]
      exact ⟨by omega, fun e => by omega⟩
    cases hp with
    | @char c _ hc =>
      have hc' : c ∉ py!"$`\"\\\n\u0000" := by
        simp only [List.mem_cons, List.not_mem_nil, or_false, not_or] at hc hd hb ⊢
        exact ⟨Ne.symm hd.1, Ne.symm hb.1, hc.1, hc.2.1, hc.2.2.1, hc.2.2.2.2⟩
      obtain ⟨r, rfl, hr⟩ := quoted_plain (u := [c]) (by simpa using hc') hq hd.2
      obtain ⟨i1, i2⟩ := ih hr hd.2 hb.2
      simp only [List.length_append, List.length_cons, List.length_nil]
      refine ⟨by omega, fun e => .char ?_ (i2 (by omega))⟩
      simp only [List.mem_cons, List.not_mem_nil, or_false, not_or] at hc hc' ⊢
      exact ⟨hc'.1, hc'.2.1, hc.1, hc.2.1, hc.2.2.1, hc.2.2.2.1, hc.2.2.2.2⟩
    | @lineEnd e _ he =>
      refine absurd ?_ (quoted_no_lineEnd hq)
      simp only [List.mem_cons, List.not_mem_nil, or_false] at he
      rcases he with rfl | rfl <;> simp
    | @oldLineEnd _ _ =>
      obtain ⟨r, h1, hr⟩ := quoted_kept (c := '\r') (by decide) hq hd.2
      exact fin (u := py!"\\\r") h1 hr (by decide)
    | @one c d _ hcd =>
      by_cases hc : c ∈ ['\\', '"']
      · obtain ⟨r, rfl, hr⟩ := quoted_dropped hc hq hd.2
        obtain ⟨i1, i2⟩ := ih hr hd.2 hb.2
        simp only [List.length_append, List.length_cons, List.length_nil]
        exact ⟨by omega, fun e => .dropped hc (i2 (by omega))⟩
      · have hc' : c ∉ py!"$`\"\\\n\u0000" := by
          simp only [oneCharEscapes, List.mem_cons, List.not_mem_nil, or_false, Prod.mk.injEq] at hcd
          intro hm
          simp only [List.mem_cons, List.not_mem_nil, or_false] at hm hc
          rcases hm with rfl | rfl | rfl | rfl | rfl | rfl <;> simp at hcd hc
        obtain ⟨r, h1, hr⟩ := quoted_kept hc' hq hd.2
        exact fin (u := ['\\', c]) h1 hr (by simp)
    | @octal ds n _ hn hne hl _ =>
      have hv := (number_val (by decide) hn).2
      cases ds with
      | nil => exact absurd rfl hne
      | cons c ds =>
        have hds : ∀ d ∈ ds, d ∉ py!"$`\"\\\n\u0000" := fun d hd => digit_plain (Nat.lt_trans (hv d (.tail _ hd)) (by decide))
        have hq' : Quoted env ('\\' :: c :: (ds ++ t)) x := hq
        obtain ⟨r, h1, hr⟩ := quoted_kept (digit_plain (Nat.lt_trans (hv c (.head _)) (by decide))) hq'
          (by simp only [List.mem_append, not_or]; exact ⟨fun h => hds _ h (by decide), hd.2⟩)
        obtain ⟨r', rfl, hr'⟩ := quoted_plain hds hr hd.2
        exact fin (u := '\\' :: c :: ds) h1 hr' (by simp)
    | @hex c k ds n _ hck hn hk _ =>
      have hv := (number_val (by decide) hn).2
      have hds : ∀ d ∈ ds, d ∉ py!"$`\"\\\n\u0000" := fun d hd => digit_plain (hv d hd)
      have hc : c ∉ py!"$`\"\\\n\u0000" := by
        simp only [hexEscapes, List.mem_cons, List.not_mem_nil, or_false, Prod.mk.injEq] at hck
        rcases hck with ⟨rfl, _⟩ | ⟨rfl, _⟩ | ⟨rfl, _⟩ <;> decide
      have hq' : Quoted env ('\\' :: c :: (ds ++ t)) x := hq
      obtain ⟨r, h1, hr⟩ := quoted_kept hc hq' (by simp only [List.mem_append, not_or]; exact ⟨fun h => hds _ h (by decide), hd.2⟩)
      obtain ⟨r', rfl, hr'⟩ := quoted_plain hds hr hd.2
      exact fin (u := '\\' :: c :: ds) h1 hr' (by simp)
    | @unknown c _ hc =>
      have hc' : c ∉ py!"$`\"\\\n\u0000" := by
        simp only [List.mem_cons, List.not_mem_nil, or_false, not_or] at hd hb
        intro hm
        simp only [List.mem_cons, List.not_mem_nil, or_false] at hm
        rcases hm with rfl | rfl | rfl | rfl | rfl | rfl
        · exact hd.1.2 rfl
        · exact hb.1.2 rfl
        all_goals exact hc (by decide)
      obtain ⟨r, rfl, hr⟩ := quoted_kept hc' hq hd.2
      obtain ⟨i1, i2⟩ := ih hr hd.2 hb.2
      simp only [List.length_append, List.length_cons, List.length_nil]
      refine ⟨by omega, fun e => .kept hc ?_ (i2 (by omega))⟩
      simp only [List.mem_cons, List.not_mem_nil, or_false, not_or] at hd hb ⊢
      exact ⟨Ne.symm hd.1.2, Ne.symm hb.1.2⟩

end CPE.SetEnv.Bash
