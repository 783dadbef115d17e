import Verif.Spec.EventText
import Verif.Proofs.Messages
import Verif.Props.ExceptionControl
/-
Lemmas for C71.
-/
namespace CPE.Notes
open CPE CPE.Spec CPE.Notes.Spec CPE.Props

theorem rows_exist (t : Str) : ∃ l ls, Rows t (l :: ls) := by
  induction t with
  | nil => exact ⟨[], [], .last (by simp)⟩
  | cons c t ih =>
    obtain ⟨l, ls, h⟩ := ih
    by_cases hc : c = '\n'
    · subst hc; exact ⟨[], l :: ls, .more (l := []) (by simp) h⟩
    · cases h with
      | last hl => exact ⟨c :: t, [], .last (by simp [hl, Ne.symm hc])⟩
      | more hl h => exact ⟨c :: l, ls, .more (l := c :: l) (by simp [hl, Ne.symm hc]) h⟩

theorem replaceNewline_append (r a b : Str) : replaceNewline r (a ++ b) = replaceNewline r a ++ replaceNewline r b := by
  simp [replaceNewline]

theorem replaceNewline_none {r a : Str} (h : '\n' ∉ a) : replaceNewline r a = a := by
  induction a with
  | nil => rfl
  | cons c a ih =>
    have hc : c ≠ '\n' := fun e => h (by simp [e])
    have := ih (fun e => h (by simp [e]))
    unfold replaceNewline at this ⊢
    rw [List.flatMap_cons, if_neg hc, this]; rfl

/-- The text of rows with a mark before the first one and another one before the others. -/
theorem replaceNewline_rows (q : Str) {t l : Str} {ls : List Str} (h : Rows t (l :: ls)) (p : Str) :
    p ++ replaceNewline ('\n' :: q) t ++ ['\n'] = KW.unlines ((p ++ l) :: ls.map (q ++ ·)) := by
  induction ls generalizing t l p with
  | nil =>
    cases h with
    | last hl => rw [replaceNewline_none hl]; simp [KW.unlines]
    | more _ h => cases h
  | cons k ls ih =>
    cases h with
    | more hl h =>
      rename_i t
      have := ih h q
      rw [show l ++ '\n' :: t = l ++ (['\n'] ++ t) from rfl, replaceNewline_append, replaceNewline_append,
        replaceNewline_none hl, List.map_cons, KW.unlines_cons, ← this]
      simp [replaceNewline]

theorem strip_replace (q f : Str) :
    strip (replaceNewline ('\n' :: q) (strip f)) = replaceNewline ('\n' :: q) (strip f) := by
  have hh : ∀ c, (strip f).head? = some c → isSpace c = false := fun c h => stripBy_head h
  have hl : ∀ c, (strip f).getLast? = some c → isSpace c = false := fun c h => stripBy_last h
  refine stripBy_unique (a := []) (b := []) (by simp) (by simp) (by simp) ?_ ?_
  · intro c hc
    cases ht : strip f with
    | nil => rw [ht] at hc; cases hc
    | cons d t =>
      rw [ht] at hc hh
      have hd := hh d rfl
      have : d ≠ '\n' := by rintro rfl; cases hd
      rw [replaceNewline, List.flatMap_cons, if_neg this] at hc
      cases hc; exact hd
  · intro c hc
    rcases List.eq_nil_or_concat (strip f) with ht | ⟨t, d, ht⟩
    · rw [ht] at hc; cases hc
    · rw [List.concat_eq_append] at ht
      rw [ht] at hc hl
      have hd := hl d (by simp)
      have : d ≠ '\n' := by rintro rfl; cases hd
      rw [replaceNewline, List.flatMap_append, List.flatMap_cons, if_neg this] at hc
      simp at hc; subst hc; exact hd

theorem trimmed_strip (f : Str) : Trimmed White f (strip f) := by
  obtain ⟨a, b, h, ha, hb⟩ := stripBy_split isSpace f
  have no : ∀ c, isSpace c = false → ¬ White c := fun c h hw => by rw [(isSpace_iff c).2 hw] at h; cases h
  exact ⟨a, b, h, fun c hc => (isSpace_iff c).1 (ha c hc), fun c hc => (isSpace_iff c).1 (hb c hc),
    fun c hc => no c (stripBy_head (p := isSpace) hc), fun c hc => no c (stripBy_last (p := isSpace) hc)⟩

theorem strip_mem (f : Str) {c : Char} (h : c ∈ strip f) : c ∈ f := by
  obtain ⟨a, b, hf, -, -⟩ := stripBy_split isSpace f
  rw [hf]
  exact List.mem_append.2 (.inl (List.mem_append.2 (.inr h)))

theorem printed_unlines {ls : List Str} (h : ∀ l ∈ ls, '\n' ∉ l) : Printed ls (KW.unlines ls) := by
  induction ls with
  | nil => exact .nil
  | cons l ls ih =>
    rw [KW.unlines_cons]
    exact .cons (h l (by simp)) (ih fun l hl => h l (by simp [hl]))

theorem rows_clean {t : Str} {ls : List Str} (h : Rows t ls) : ∀ l ∈ ls, '\n' ∉ l := by
  induction h with
  | last hl => intro l h; cases List.mem_singleton.1 h; exact hl
  | more hl _ ih => intro l h; rcases List.mem_cons.1 h with rfl | h
                    · exact hl
                    · exact ih l h

theorem messageRows_exist (m : Option Str) : ∃ ms, MessageRows m ms ∧ (∀ l ∈ ms, '\n' ∉ l) ∧
    printed (messagePrints m) = KW.unlines ms := by
  cases m with
  | none => exact ⟨[], .none, by simp, rfl⟩
  | some m =>
    obtain ⟨l, ls, h⟩ := rows_exist m
    refine ⟨_, .some h, ?_, ?_⟩
    · have hc := rows_clean h
      intro x hx
      rcases List.mem_cons.1 hx with rfl | hx
      · rw [List.mem_append]; rintro (h | h)
        · revert h; decide
        · exact hc _ (by simp) h
      · obtain ⟨k, hk, rfl⟩ := List.mem_map.1 hx
        rw [List.mem_append]; rintro (h | h)
        · revert h; decide
        · exact hc _ (by simp [hk]) h
    · rw [← replaceNewline_rows py!"!!            : " h]
      simp [printed, messagePrints]

theorem stackRows_exist (fs : List Str) : ∃ ss, StackRows fs ss ∧ (∀ l ∈ ss, '\n' ∉ l) ∧
    printed (fs.map fun frame => py!"!! " ++ strip (replaceNewline py!"\n!! " (strip frame))) = KW.unlines ss := by
  induction fs with
  | nil => exact ⟨[], .nil, by simp, rfl⟩
  | cons f fs ih =>
    obtain ⟨rs, h1, h2, h3⟩ := ih
    obtain ⟨l, ls, h⟩ := rows_exist (strip f)
    refine ⟨_, .cons (trimmed_strip f) h h1, ?_, ?_⟩
    · have hc := rows_clean h
      intro x hx
      rcases List.mem_append.1 hx with hx | hx
      · obtain ⟨k, hk, rfl⟩ := List.mem_map.1 hx
        rw [List.mem_append]; rintro (h | h)
        · revert h; decide
        · exact hc _ hk h
      · exact h2 x hx
    · rw [KW.unlines_append, ← h3]
      have := replaceNewline_rows py!"!! " h py!"!! "
      rw [List.map_cons (f := (py!"!! " ++ ·)), ← this, List.map_cons, strip_replace]
      simp [printed]

theorem printed_fun {ls : List Str} {t : Str} (h : Printed ls t) : t = KW.unlines ls := by
  induction h with
  | nil => rfl
  | cons _ _ ih => rw [KW.unlines_cons, ih]

theorem row_split {a b s t : Str} (ha : '\n' ∉ a) (hb : '\n' ∉ b) (h : a ++ '\n' :: s = b ++ '\n' :: t) : a = b ∧ s = t := by
  induction a generalizing b with
  | nil =>
    cases b with
    | nil => cases h; exact ⟨rfl, rfl⟩
    | cons c b => cases h; exact absurd (by simp) hb
  | cons c a ih =>
    cases b with
    | nil => cases h; exact absurd (by simp) ha
    | cons d b =>
      injection h with h1 h2
      subst h1
      obtain ⟨rfl, rfl⟩ := ih (fun h => ha (by simp [h])) (fun h => hb (by simp [h])) h2
      exact ⟨rfl, rfl⟩

theorem printed_inj {ls ls' : List Str} {t : Str} (h : Printed ls t) (h' : Printed ls' t) : ls = ls' := by
  induction h generalizing ls' with
  | nil =>
    generalize he : ([] : Str) = t at h'
    cases h' with
    | nil => rfl
    | cons => exact absurd he (by simp)
  | cons hl h ih =>
    rename_i l ls t
    generalize he : l ++ '\n' :: t = u at h'
    cases h' with
    | nil => exact absurd he (by simp)
    | cons hl' h' =>
      obtain ⟨rfl, rfl⟩ := row_split hl hl' he
      rw [ih h']

theorem rows_text {t t' : Str} {ls : List Str} (h : Rows t ls) (h' : Rows t' ls) : t = t' := by
  induction h generalizing t' with
  | last _ => cases h' with
    | last _ => rfl
    | more _ h => cases h
  | more _ h ih => cases h' with
    | last _ => cases h
    | more _ h' => rw [ih h']

theorem map_append_inj {p : Str} {a b : List Str} (h : a.map (p ++ ·) = b.map (p ++ ·)) : a = b := by
  induction a generalizing b with
  | nil => cases b with
    | nil => rfl
    | cons _ _ => cases h
  | cons x a ih => cases b with
    | nil => cases h
    | cons y b =>
      injection h with h1 h2
      rw [List.append_cancel_left h1, ih h2]

theorem messageRows_ne {m : Option Str} {ms : List Str} (h : MessageRows m ms) : ∀ l ∈ ms, l ≠ py!"!!" := by
  cases h with
  | none => simp
  | some _ =>
    intro l hl
    rcases List.mem_cons.1 hl with rfl | hl
    · intro h; cases h
    · obtain ⟨k, _, rfl⟩ := List.mem_map.1 hl
      intro h; cases h

theorem messageRows_inj {m m' : Option Str} {ms : List Str} (h : MessageRows m ms) (h' : MessageRows m' ms) : m = m' := by
  cases h with
  | none => cases h'; rfl
  | some h =>
    rename_i m l ls
    generalize he : (py!"!! Message    : " ++ l) :: ls.map (py!"!!            : " ++ ·) = x at h'
    cases h' with
    | none => cases he
    | some h' =>
      injection he with h1 h2
      have h1 := List.append_cancel_left h1
      have h2 := map_append_inj h2
      subst h1 h2
      rw [rows_text h h']

/-- A list up to the first element that is `x`. -/
theorem upTo_inj {x : Str} {a b c d : List Str} (ha : ∀ l ∈ a, l ≠ x) (hb : ∀ l ∈ b, l ≠ x)
    (h : a ++ x :: c = b ++ x :: d) : a = b ∧ c = d := by
  induction a generalizing b with
  | nil => cases b with
    | nil => cases h; exact ⟨rfl, rfl⟩
    | cons y b => injection h with h1 h2; exact absurd h1.symm (hb y (by simp))
  | cons y a ih => cases b with
    | nil => injection h with h1 h2; exact absurd h1 (ha y (by simp))
    | cons z b =>
      injection h with h1 h2
      obtain ⟨rfl, rfl⟩ := ih (fun l hl => ha l (by simp [hl])) (fun l hl => hb l (by simp [hl])) h2
      exact ⟨by rw [h1], rfl⟩

end CPE.Notes
