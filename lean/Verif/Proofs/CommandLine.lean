import Verif.Spec.CommandLine
import Verif.Proofs.Base
/-
Proofs about the reading of command lines (C72).
-/
namespace CPE.Cli
open CPE CPE.KW

/-- How names look. -/
def goodName : Str → Bool
  | ['-', c] => decide (c ≠ '-') && decide (c ≠ '=')
  | '-' :: '-' :: r => decide (r ≠ []) && decide ('=' ∉ r)
  | _ => false

structure WF (T : Table) : Prop where
  names : ∀ p ∈ strings T, goodName p.1 = true
  nodup : ((strings T).map Prod.fst).Nodup
  two : ∃ n ∈ (strings T).map Prod.fst, ∃ n' ∈ (strings T).map Prod.fst, n ≠ n' ∧ n.take 2 = py!"--" ∧ n'.take 2 = py!"--"

theorem mem_strings {T : Table} {s : Str} {o : Opt} : (s, o) ∈ strings T ↔ Named T s o := by
  unfold strings Named
  simp only [List.mem_flatMap, List.mem_map, Prod.mk.injEq]
  constructor
  · rintro ⟨o', h1, s', h2, rfl, rfl⟩
    exact ⟨h1, h2⟩
  · rintro ⟨h1, h2⟩
    exact ⟨o, h1, s, h2, rfl, rfl⟩

theorem fst_unique {α β : Type} : ∀ {l : List (α × β)}, (l.map Prod.fst).Nodup → ∀ {a b c}, (a, b) ∈ l → (a, c) ∈ l → b = c
  | [], _, _, _, _, h, _ => by cases h
  | (x, y) :: l, h, a, b, c, h1, h2 => by
    rw [List.map_cons, List.nodup_cons] at h
    rcases List.mem_cons.1 h1 with h1 | h1 <;> rcases List.mem_cons.1 h2 with h2 | h2
    · cases h1; cases h2; rfl
    · cases h1
      exact absurd (List.mem_map.2 ⟨_, h2, rfl⟩) h.1
    · cases h2
      exact absurd (List.mem_map.2 ⟨_, h1, rfl⟩) h.1
    · exact fst_unique h.2 h1 h2

section
variable {T : Table}

theorem WF.unique (hT : WF T) {s : Str} {o o' : Opt} (h : Named T s o) (h' : Named T s o') : o = o' :=
  fst_unique hT.nodup (mem_strings.2 h) (mem_strings.2 h')

theorem WF.good (hT : WF T) {s : Str} {o : Opt} (h : Named T s o) :
    (∃ c, s = ['-', c] ∧ c ≠ '-' ∧ c ≠ '=') ∨ (∃ r, s = '-' :: '-' :: r ∧ r ≠ [] ∧ '=' ∉ r) := by
  have := hT.names _ (mem_strings.2 h)
  dsimp only at this
  unfold goodName at this
  split at this
  · rename_i c
    simp only [Bool.and_eq_true, decide_eq_true_eq] at this
    exact .inl ⟨_, rfl, this⟩
  · rename_i r _
    simp only [Bool.and_eq_true, decide_eq_true_eq] at this
    exact .inr ⟨_, rfl, this⟩
  · cases this

theorem find_some (hT : WF T) {s : Str} {o : Opt} : find T s = some o ↔ Named T s o := by
  constructor
  · intro h
    refine ⟨List.mem_of_find?_eq_some h, ?_⟩
    have := List.find?_some h
    exact of_decide_eq_true this
  · intro h
    unfold find
    cases hf : T.find? fun o => decide (s ∈ o.names) with
    | none =>
      have := List.find?_eq_none.1 hf o h.1
      exact absurd (decide_eq_true h.2) this
    | some o' =>
      have h' : Named T s o' := ⟨List.mem_of_find?_eq_some hf, by
        have := List.find?_some hf
        exact of_decide_eq_true this⟩
      rw [hT.unique h h']

theorem find_none (hT : WF T) {s : Str} : find T s = none ↔ ∀ o, ¬ Named T s o := by
  cases h : find T s with
  | none =>
    refine ⟨fun _ o ho => ?_, fun _ => rfl⟩
    rw [← find_some hT, h] at ho
    cases ho
  | some o =>
    exact ⟨fun h' => (by cases h'), fun h' => absurd ((find_some hT).1 h) (h' o)⟩

theorem WF.no_eq (hT : WF T) {s : Str} {o : Opt} (h : Named T s o) : '=' ∉ s := by
  rcases hT.good h with ⟨c, rfl, h1, h2⟩ | ⟨r, rfl, h1, h2⟩
  · intro hm
    simp only [List.mem_cons, List.not_mem_nil, or_false] at hm
    rcases hm with hm | hm
    · cases hm
    · exact h2 hm.symm
  · intro hm
    rcases List.mem_cons.1 hm with hm | hm
    · cases hm
    · rcases List.mem_cons.1 hm with hm | hm
      · cases hm
      · exact h2 hm

theorem WF.head (hT : WF T) {s : Str} {o : Opt} (h : Named T s o) : s.head? = some '-' ∧ 2 ≤ s.length := by
  rcases hT.good h with ⟨c, rfl, h1, h2⟩ | ⟨r, rfl, h1, h2⟩
  · exact ⟨rfl, Nat.le_refl _⟩
  · exact ⟨rfl, by simp⟩

theorem take2 {w : Str} : w.take 2 = py!"--" ↔ py!"--" <+: w := by
  constructor
  · intro h
    exact ⟨w.drop 2, by rw [← h, List.take_append_drop]⟩
  · rintro ⟨r, rfl⟩
    rfl

theorem WF.long (hT : WF T) {s : Str} {o : Opt} (h : Named T s o) (h2 : s.take 2 ≠ py!"--") :
    ∃ c, s = ['-', c] ∧ c ≠ '-' ∧ c ≠ '=' := by
  rcases hT.good h with h | ⟨r, rfl, _⟩
  · exact h
  · exact absurd rfl h2

theorem WF.long' (hT : WF T) {s : Str} {o : Opt} (h : Named T s o) (h2 : s.take 2 = py!"--") : 2 < s.length := by
  rcases hT.good h with ⟨c, rfl, h', _⟩ | ⟨r, rfl, hr, _⟩
  · simp only [List.take] at h2
    exact absurd (by injection h2 with _ h2; injection h2) h'
  · cases r with
    | nil => exact absurd rfl hr
    | cons => simp

theorem mem_of_prefix {s n : Str} {c : Char} (h : s <+: n) (hc : c ∈ s) : c ∈ n := by
  obtain ⟨t, rfl⟩ := h
  exact List.mem_append_left _ hc

theorem Spells.no_eq (hT : WF T) {s : Str} {o : Opt} (h : Spells T s o) : '=' ∉ s := by
  rcases h with h | ⟨_, _, n, hn, hp, _⟩
  · exact hT.no_eq h
  · exact fun h => hT.no_eq hn (mem_of_prefix hp h)

theorem take2_prefix {s n : Str} (h : s <+: n) (h2 : s.take 2 = py!"--") : n.take 2 = py!"--" :=
  take2.2 ((take2.1 h2).trans h)

/-! ### Splitting at the equals sign -/

theorem beforeEq_join {s v : Str} (h : '=' ∉ s) : beforeEq (s ++ '=' :: v) = s := by
  induction s with
  | nil => simp [beforeEq]
  | cons c s ih =>
    have hc : c ≠ '=' := fun e => h (by rw [e]; exact List.mem_cons_self)
    have := ih (fun e => h (List.mem_cons_of_mem _ e))
    unfold beforeEq at this ⊢
    rw [List.cons_append, List.takeWhile_cons, if_pos (decide_eq_true hc), this]

theorem afterEq_join {s v : Str} (h : '=' ∉ s) : afterEq (s ++ '=' :: v) = v := by
  induction s with
  | nil => simp [afterEq]
  | cons c s ih =>
    have hc : c ≠ '=' := fun e => h (by rw [e]; exact List.mem_cons_self)
    have := ih (fun e => h (List.mem_cons_of_mem _ e))
    unfold afterEq at this ⊢
    rw [List.cons_append, List.dropWhile_cons, if_pos (decide_eq_true hc), this]

theorem beforeEq_none {s : Str} (h : '=' ∉ s) : beforeEq s = s := by
  induction s with
  | nil => rfl
  | cons c s ih =>
    have hc : c ≠ '=' := fun e => h (by rw [e]; exact List.mem_cons_self)
    have := ih (fun e => h (List.mem_cons_of_mem _ e))
    unfold beforeEq at this ⊢
    rw [List.takeWhile_cons, if_pos (decide_eq_true hc), this]

theorem not_mem_beforeEq (w : Str) : '=' ∉ beforeEq w := by
  induction w with
  | nil => exact fun h => by cases h
  | cons c w ih =>
    unfold beforeEq at ih ⊢
    rw [List.takeWhile_cons]
    split
    · rename_i hc
      intro h
      rcases List.mem_cons.1 h with h | h
      · rw [← h] at hc
        exact absurd hc (by decide)
      · exact ih h
    · exact fun h => by cases h

theorem split_eq {w : Str} (h : '=' ∈ w) : w = beforeEq w ++ '=' :: afterEq w := by
  induction w with
  | nil => cases h
  | cons c w ih =>
    unfold beforeEq afterEq at ih ⊢
    rw [List.takeWhile_cons, List.dropWhile_cons]
    by_cases hc : c = '='
    · subst hc
      rfl
    · rw [if_pos (decide_eq_true hc), if_pos (decide_eq_true hc), List.cons_append]
      rcases List.mem_cons.1 h with h | h
      · exact absurd h.symm hc
      · rw [← ih h]

/-! ### How a word is read -/

/-- How a word is read. -/
inductive Kinds (neg : Str → Bool) (T : Table) : Str → Kind → Prop
  | word {w} : Plain neg T w → Kinds neg T w .word
  | opt {w o n} : Spells T w o → (n.take 2 = py!"--" ↔ w.take 2 = py!"--") → Kinds neg T w (.opt o n none false)
  | joined {s v o n} : Spells T s o → (n.take 2 = py!"--" ↔ s.take 2 = py!"--") →
      Kinds neg T (s ++ '=' :: v) (.opt o n (some v) true)
  | short {c x v o} : Named T ['-', c] o → x ≠ '=' → Kinds neg T ('-' :: c :: x :: v) (.opt o ['-', c] (some (x :: v)) false)
  | unknown {w} : w.head? = some '-' → w ≠ py!"-" → ¬ Resembles T w → neg w = false → ' ' ∉ w → Kinds neg T w .unknown

theorem filterMap_single {α β γ : Type} [DecidableEq α] : ∀ {l : List (α × β)} {f : α × β → Option γ} {a : α} {b : β} {g : γ},
    (l.map Prod.fst).Nodup → (a, b) ∈ l → f (a, b) = some g → (∀ p ∈ l, p.1 ≠ a → f p = none) → l.filterMap f = [g]
  | [], _, _, _, _, _, h, _, _ => by cases h
  | p :: l, f, a, b, g, hn, h, hf, ho => by
    rw [List.map_cons, List.nodup_cons] at hn
    by_cases hp : p.1 = a
    · have : p = (a, b) := by
        rcases List.mem_cons.1 h with h | h
        · exact h.symm
        · exact absurd (by rw [hp]; exact List.mem_map.2 ⟨_, h, rfl⟩) hn.1
      subst this
      rw [List.filterMap_cons_some hf]
      congr 1
      apply List.filterMap_eq_nil_iff.2
      intro q hq
      apply ho q (List.mem_cons_of_mem _ hq)
      intro e
      exact hn.1 (by rw [← e]; exact List.mem_map.2 ⟨_, hq, rfl⟩)
    · rw [List.filterMap_cons_none (ho p List.mem_cons_self hp)]
      rcases List.mem_cons.1 h with h | h
      · exact absurd (by rw [← h]) hp
      · exact filterMap_single hn.2 h hf fun q hq => ho q (List.mem_cons_of_mem _ hq)

theorem cand_long {w : Str} (h : w.take 2 = py!"--") : candidates T w = (strings T).filterMap fun p =>
    if beforeEq w <+: p.1 then some (.opt p.2 p.1 (if '=' ∈ w then some (afterEq w) else none) ('=' ∈ w)) else none := by
  unfold candidates
  rw [if_pos h]

theorem cand_short {w : Str} (h : w.take 2 ≠ py!"--") : candidates T w = (strings T).filterMap fun p =>
    if p.1 = w.take 2 then some (.opt p.2 p.1 (some (w.drop 2)) false)
      else if w <+: p.1 then some (.opt p.2 p.1 none false)
      else none := by
  unfold candidates
  rw [if_neg h]

/-- Only one long name has this beginning. -/
theorem cand_one (hT : WF T) {s w n : Str} {o : Opt} (hs : beforeEq w = s) (hw : w.take 2 = py!"--")
    (hn : Named T n o) (hp : s <+: n) (hu : ∀ n' o', Named T n' o' → s <+: n' → n' = n) :
    candidates T w = [.opt o n (if '=' ∈ w then some (afterEq w) else none) ('=' ∈ w)] := by
  rw [cand_long hw]
  refine filterMap_single hT.nodup (mem_strings.2 hn) ?_ ?_
  · dsimp only
    rw [hs, if_pos hp]
  · intro p hp' hne
    rw [hs, if_neg]
    exact fun h => hne (hu p.1 p.2 (mem_strings.1 hp') h)

theorem classify_dash {neg : Str → Bool} {w : Str} (h : w.head? = some '-') : classify neg T w =
    match find T w with
    | some o => .ok (.opt o w none false)
    | none =>
      if w.length = 1 then .ok .word
      else match (if '=' ∈ w then find T (beforeEq w) else none) with
        | some o => .ok (.opt o (beforeEq w) (some (afterEq w)) true)
        | none => match candidates T w with
          | [k] => .ok k
          | _ :: _ :: _ => .exc .systemExit
          | [] => if neg w = true then .ok .word else if ' ' ∈ w then .ok .word else .ok .unknown := by
  unfold classify
  rw [if_neg (by rw [h]; simp)]
  rfl

theorem classify_named (hT : WF T) {neg : Str → Bool} {w : Str} {o : Opt} (h : Named T w o) :
    classify neg T w = .ok (.opt o w none false) := by
  rw [classify_dash (hT.head h).1, (find_some hT).2 h]

theorem cand_nil (hT : WF T) {w : Str} (hd : w.head? = some '-') (hl : w.length ≠ 1) (h : ¬ Resembles T w) :
    candidates T w = [] ∧ (∀ o, ¬ Named T w o) ∧ ('=' ∈ w → ∀ o, ¬ Named T (beforeEq w) o) := by
  by_cases hw : w.take 2 = py!"--"
  · have hno : ∀ n o, Named T n o → ¬ beforeEq w <+: n := by
      intro n o hn hp
      apply h
      refine .inl ⟨beforeEq w, n, o, hn, ?_, hp, not_mem_beforeEq w, ?_⟩
      · obtain ⟨r, rfl⟩ := take2.1 hw
        exact ⟨beforeEq r, rfl⟩
      · by_cases he : '=' ∈ w
        · exact .inr ⟨_, split_eq he⟩
        · exact .inl (beforeEq_none he).symm
    refine ⟨?_, fun o hn => hno _ o hn ?_, fun _ o hn => hno _ o hn (List.prefix_refl _)⟩
    · rw [cand_long hw]
      apply List.filterMap_eq_nil_iff.2
      intro p hp
      exact if_neg (hno _ _ (mem_strings.1 hp))
    · rw [beforeEq_none (hT.no_eq hn)]
      exact List.prefix_refl _
  · obtain ⟨c, v, rfl⟩ : ∃ c v, w = '-' :: c :: v := by
      match w, hd, hl with
      | [], hd, _ => cases hd
      | [_], _, hl => exact absurd rfl hl
      | a :: c :: v, hd, _ =>
        injection hd with hd
        exact ⟨c, v, by rw [hd]⟩
    have hc : c ≠ '-' := fun e => hw (by rw [e]; rfl)
    have hno : ∀ o, ¬ Named T ['-', c] o := fun o hn => h (.inr ⟨c, v, o, hc, hn, rfl⟩)
    have hno' : ∀ n o, Named T n o → ∀ u, n ≠ '-' :: c :: u := by
      intro n o hn u e
      rcases hT.good hn with ⟨c', hs, _⟩ | ⟨r, hs, _⟩
      · rw [e] at hs
        injection hs with _ hs
        injection hs with h1 h2
        subst h2
        exact hno o (e ▸ hn)
      · rw [e] at hs
        injection hs with _ hs
        injection hs with h1 h2
        exact hc h1
    refine ⟨?_, fun o hn => hno' _ o hn v rfl, fun he o hn => ?_⟩
    · rw [cand_short hw]
      apply List.filterMap_eq_nil_iff.2
      intro p hp
      have hp := mem_strings.1 hp
      rw [if_neg (show ¬ p.1 = List.take 2 ('-' :: c :: v) from hno' _ _ hp []), if_neg]
      rintro ⟨t, e⟩
      exact hno' _ _ hp (v ++ t) e.symm
    · by_cases hce : c = '='
      · subst hce
        have := (hT.head hn).2
        simp [beforeEq] at this
      · have e : beforeEq ('-' :: c :: v) = '-' :: c :: beforeEq v := by
          unfold beforeEq
          rw [List.takeWhile_cons, if_pos (by decide), List.takeWhile_cons, if_pos (decide_eq_true hce)]
        rw [e] at hn
        exact hno' _ _ hn _ rfl

theorem classify_plain (hT : WF T) {neg : Str → Bool} {w : Str} (h : Plain neg T w) : classify neg T w = .ok .word := by
  by_cases hd : w.head? = some '-'
  · rw [classify_dash hd]
    rcases h with h | h | ⟨h, hr⟩
    · exact absurd hd h
    · subst h
      rw [(find_none hT).2 fun o ho => absurd (hT.head ho).2 (by decide)]
      rfl
    · by_cases hl : w.length = 1
      · have : find T w = none := (find_none hT).2 fun o ho => by
          have := (hT.head ho).2
          omega
        rw [this]
        dsimp only
        rw [if_pos hl]
      · obtain ⟨h1, h2, h3⟩ := cand_nil hT hd hl h
        rw [(find_none hT).2 h2, h1]
        dsimp only
        rw [if_neg hl]
        have : (if '=' ∈ w then find T (beforeEq w) else none) = none := by
          split
          · rename_i he
            exact (find_none hT).2 (h3 he)
          · rfl
        rw [this]
        dsimp only
        rcases hr with hr | hr
        · rw [if_pos hr]
        · rw [if_pos hr]
          split <;> rfl
  · unfold classify
    rw [if_pos hd]

theorem classify_unknown (hT : WF T) {neg : Str → Bool} {w : Str} (hd : w.head? = some '-') (hw : w ≠ py!"-")
    (h : ¬ Resembles T w) (hn : neg w = false) (hs : ' ' ∉ w) : classify neg T w = .ok .unknown := by
  have hl : w.length ≠ 1 := by
    intro hl
    match w, hd, hl with
    | [c], hd, _ =>
      injection hd with hd
      exact hw (by rw [hd])
  rw [classify_dash hd]
  obtain ⟨h1, h2, h3⟩ := cand_nil hT hd hl h
  rw [(find_none hT).2 h2, h1]
  dsimp only
  rw [if_neg hl]
  have : (if '=' ∈ w then find T (beforeEq w) else none) = none := by
    split
    · rename_i he
      exact (find_none hT).2 (h3 he)
    · rfl
  rw [this]
  dsimp only
  rw [if_neg (by rw [hn]; decide), if_neg hs]

theorem long_head {w : Str} (h : py!"--" <+: w) : w.head? = some '-' ∧ w.length ≠ 1 := by
  obtain ⟨r, rfl⟩ := h
  exact ⟨rfl, by simp⟩

/-- A name or the beginning of one. -/
theorem classify_spells (hT : WF T) {neg : Str → Bool} {s : Str} {o : Opt} (h : Spells T s o) :
    ∃ n, (n.take 2 = py!"--" ↔ s.take 2 = py!"--") ∧ classify neg T s = .ok (.opt o n none false) ∧
      ((∃ c, s = ['-', c]) → n = s) := by
  rcases h with h | ⟨hl, hno, n, hn, hp, hu⟩
  · exact ⟨s, Iff.rfl, classify_named hT h, fun _ => rfl⟩
  · have h2 := take2.2 hl
    have he : '=' ∉ s := fun h => hT.no_eq hn (mem_of_prefix hp h)
    refine ⟨n, ⟨fun _ => h2, fun _ => take2_prefix hp h2⟩, ?_, ?_⟩
    · rw [classify_dash (long_head hl).1, (find_none hT).2 hno]
      dsimp only
      rw [if_neg (long_head hl).2, if_neg he]
      dsimp only
      rw [cand_one hT (beforeEq_none he) h2 hn hp hu, if_neg he]
      dsimp only
      rw [decide_eq_false he]
    · rintro ⟨c, rfl⟩
      exact absurd h2 (fun e => by
        have : c = '-' := by injection e with _ e; injection e
        subst this
        exact hno o (by
          rcases hT.good hn with ⟨c', rfl, hc, _⟩ | ⟨r, rfl, hr, hr'⟩
          · obtain ⟨t, ht⟩ := hp
            injection ht with _ ht
            injection ht with ht
            exact absurd ht.symm hc
          · exfalso
            obtain ⟨a, ha, b, hb, hab, ha2, hb2⟩ := hT.two
            obtain ⟨⟨_, oa⟩, hma, rfl⟩ := List.mem_map.1 ha
            obtain ⟨⟨_, ob⟩, hmb, rfl⟩ := List.mem_map.1 hb
            exact hab ((hu _ _ (mem_strings.1 hma) (take2.1 ha2)).trans (hu _ _ (mem_strings.1 hmb) (take2.1 hb2)).symm)))

theorem classify_joined (hT : WF T) {neg : Str → Bool} {s v : Str} {o : Opt} (h : Spells T s o) :
    ∃ n, (n.take 2 = py!"--" ↔ s.take 2 = py!"--") ∧ classify neg T (s ++ '=' :: v) = .ok (.opt o n (some v) true) := by
  have he := h.no_eq hT
  have hm : '=' ∈ s ++ '=' :: v := List.mem_append_right _ List.mem_cons_self
  have hnone : find T (s ++ '=' :: v) = none := (find_none hT).2 fun o ho => hT.no_eq ho hm
  have hhead : (s ++ '=' :: v).head? = some '-' ∧ (s ++ '=' :: v).length ≠ 1 := by
    have : s.head? = some '-' := by
      rcases h with h | ⟨hl, _⟩
      · exact (hT.head h).1
      · exact (long_head hl).1
    cases s with
    | nil => cases this
    | cons c s => exact ⟨this, by simp⟩
  rw [classify_dash hhead.1, hnone]
  dsimp only
  rw [if_neg hhead.2, if_pos hm, beforeEq_join he, afterEq_join he]
  rcases h with h | ⟨hl, hno, n, hn, hp, hu⟩
  · refine ⟨s, Iff.rfl, ?_⟩
    rw [(find_some hT).2 h]
  · have h2 := take2.2 hl
    refine ⟨n, ⟨fun _ => h2, fun _ => take2_prefix hp h2⟩, ?_⟩
    rw [(find_none hT).2 hno]
    dsimp only
    rw [cand_one hT (beforeEq_join he) (take2_prefix (List.prefix_append _ _) h2) hn hp hu, if_pos hm, afterEq_join he]
    dsimp only
    rw [decide_eq_true hm]

theorem classify_short (hT : WF T) {neg : Str → Bool} {c x : Char} {v : Str} {o : Opt} (h : Named T ['-', c] o) (hx : x ≠ '=') :
    classify neg T ('-' :: c :: x :: v) = .ok (.opt o ['-', c] (some (x :: v)) false) := by
  have hc : c ≠ '-' ∧ c ≠ '=' := by
    rcases hT.good h with ⟨c', hs, h1, h2⟩ | ⟨r, hs, hr, _⟩
    · injection hs with _ hs
      injection hs with hs
      exact hs ▸ ⟨h1, h2⟩
    · injection hs with _ hs
      injection hs with _ hs
      exact absurd hs.symm hr
  have hno : ∀ u o, ¬ Named T ('-' :: c :: x :: u) o := by
    intro u o ho
    rcases hT.good ho with ⟨c', hs, _⟩ | ⟨r, hs, _⟩
    · cases hs
    · injection hs with _ hs
      injection hs with hs
      exact hc.1 hs
  have hw : ('-' :: c :: x :: v).take 2 ≠ py!"--" := by
    intro e
    injection e with _ e
    injection e with e
    exact hc.1 e
  rw [classify_dash rfl, (find_none hT).2 (hno v)]
  dsimp only
  rw [if_neg (by simp)]
  have hb : (if '=' ∈ '-' :: c :: x :: v then find T (beforeEq ('-' :: c :: x :: v)) else none) = none := by
    split
    · have e : beforeEq ('-' :: c :: x :: v) = '-' :: c :: x :: beforeEq v := by
        unfold beforeEq
        rw [List.takeWhile_cons, if_pos (by decide), List.takeWhile_cons, if_pos (decide_eq_true hc.2),
          List.takeWhile_cons, if_pos (decide_eq_true hx)]
      rw [e]
      exact (find_none hT).2 (hno _)
    · rfl
  rw [hb]
  dsimp only
  have hcand : candidates T ('-' :: c :: x :: v) = [.opt o ['-', c] (some (x :: v)) false] := by
    rw [cand_short hw]
    refine filterMap_single hT.nodup (mem_strings.2 h) ?_ ?_
    · exact if_pos rfl
    · intro p hp hne
      rw [if_neg (by exact hne), if_neg]
      rintro ⟨t, e⟩
      exact hno (v ++ t) p.2 (by rw [← List.cons_append, ← List.cons_append, ← List.cons_append, e]; exact mem_strings.1 hp)
  rw [hcand]

/-- A word is read in one of these ways, or is ambiguous. -/
theorem classify_kinds (hT : WF T) {neg : Str → Bool} {w : Str} :
    (∃ k, classify neg T w = .ok k ∧ Kinds neg T w k) ∨ classify neg T w = .exc .systemExit := by
  by_cases hp : Plain neg T w
  · exact .inl ⟨_, classify_plain hT hp, .word hp⟩
  have hd : w.head? = some '-' := Classical.byContradiction fun hd => hp (.inl hd)
  by_cases hw1 : w = py!"-"
  · exact absurd (.inr (.inl hw1)) hp
  by_cases hr : ¬ Resembles T w
  · have hn : neg w = false := by
      cases h : neg w with
      | false => rfl
      | true => exact absurd (.inr (.inr ⟨hr, .inl h⟩)) hp
    have hs : ' ' ∉ w := fun h => hp (.inr (.inr ⟨hr, .inr h⟩))
    exact .inl ⟨_, classify_unknown hT hd hw1 hr hn hs, .unknown hd hw1 hr hn hs⟩
  rcases Classical.not_not.1 hr with ⟨s, n, o, hn, hl, hsn, hse, hw⟩ | ⟨c, v, o, hc, hn, rfl⟩
  · by_cases hsp : ∃ o, Spells T s o
    · obtain ⟨o, hsp⟩ := hsp
      rcases hw with rfl | ⟨v, rfl⟩
      · obtain ⟨n, h1, h2, _⟩ := classify_spells hT (neg := neg) hsp
        exact .inl ⟨_, h2, .opt hsp h1⟩
      · obtain ⟨n, h1, h2⟩ := classify_joined hT (neg := neg) (v := v) hsp
        exact .inl ⟨_, h2, .joined hsp h1⟩
    · right
      have hno : ∀ o, ¬ Named T s o := fun o h => hsp ⟨o, .inl h⟩
      have h2 := take2.2 hl
      have hlw : py!"--" <+: w := by
        rcases hw with rfl | ⟨v, rfl⟩
        · exact hl
        · exact hl.trans (List.prefix_append _ _)
      have hb : beforeEq w = s := by
        rcases hw with rfl | ⟨v, rfl⟩
        · exact beforeEq_none hse
        · exact beforeEq_join hse
      have hnw : find T w = none := by
        apply (find_none hT).2
        rcases hw with rfl | ⟨v, rfl⟩
        · exact hno
        · exact fun o ho => hT.no_eq ho (List.mem_append_right _ List.mem_cons_self)
      rw [classify_dash (long_head hlw).1, hnw]
      dsimp only
      rw [if_neg (long_head hlw).2, hb]
      have hb' : (if '=' ∈ w then find T s else none) = none := by
        split
        · exact (find_none hT).2 hno
        · rfl
      rw [hb']
      dsimp only
      -- two names
      have hmany : ∃ n' o', Named T n' o' ∧ s <+: n' ∧ n' ≠ n := by
        apply Classical.byContradiction
        intro h
        apply hsp
        refine ⟨o, .inr ⟨hl, hno, n, hn, hsn, fun n' o' h1 h2 => ?_⟩⟩
        apply Classical.byContradiction
        intro h3
        exact h ⟨n', o', h1, h2, h3⟩
      obtain ⟨n', o', hn', hsn', hne⟩ := hmany
      rw [cand_long (take2.2 hlw), hb]
      generalize hf : (fun p : Str × Opt => if s <+: p.1 then some (Kind.opt p.2 p.1 (if '=' ∈ w then some (afterEq w) else none) ('=' ∈ w)) else none) = f
      have m1 : Kind.opt o n (if '=' ∈ w then some (afterEq w) else none) ('=' ∈ w) ∈ (strings T).filterMap f :=
        List.mem_filterMap.2 ⟨_, mem_strings.2 hn, by rw [← hf]; exact if_pos hsn⟩
      have m2 : Kind.opt o' n' (if '=' ∈ w then some (afterEq w) else none) ('=' ∈ w) ∈ (strings T).filterMap f :=
        List.mem_filterMap.2 ⟨_, mem_strings.2 hn', by rw [← hf]; exact if_pos hsn'⟩
      match (strings T).filterMap f, m1, m2 with
      | [], m1, _ => cases m1
      | [k], m1, m2 =>
        have e1 := List.mem_singleton.1 m1
        have e2 := List.mem_singleton.1 m2
        rw [← e2] at e1
        injection e1 with _ e1
        exact absurd e1.symm hne
      | _ :: _ :: _, _, _ => rfl
  · left
    match v with
    | [] =>
      obtain ⟨n, h1, h2, _⟩ := classify_spells hT (neg := neg) (.inl hn)
      exact ⟨_, h2, .opt (.inl hn) h1⟩
    | x :: v =>
      by_cases hx : x = '='
      · subst hx
        obtain ⟨n, h1, h2⟩ := classify_joined hT (neg := neg) (v := v) (.inl hn)
        exact ⟨_, h2, .joined (s := ['-', c]) (.inl hn) h1⟩
      · exact ⟨_, classify_short hT hn hx, .short hn hx⟩

/-! ### The loop -/

theorem classify_ok (hT : WF T) {neg : Str → Bool} {w : Str} {k : Kind} (h : classify neg T w = .ok k) : Kinds neg T w k := by
  rcases classify_kinds hT (neg := neg) (w := w) with ⟨k', h', hk⟩ | h'
  · rw [h] at h'
    injection h' with h'
    exact h' ▸ hk
  · rw [h] at h'
    cases h'

theorem short_name (hT : WF T) {c : Char} {o : Opt} (h : Named T ['-', c] o) : c ≠ '-' ∧ c ≠ '=' := by
  rcases hT.good h with ⟨c', hs, h1, h2⟩ | ⟨r, hs, hr, _⟩
  · injection hs with _ hs
    injection hs with hs
    exact hs ▸ ⟨h1, h2⟩
  · injection hs with _ hs
    injection hs with _ hs
    exact absurd hs.symm hr

theorem classifyAll_cons {neg : Str → Bool} {w : Str} {k : Kind} {ws : List Str} {ks : List (Str × Kind)}
    (h : classify neg T w = .ok k) (hs : classifyAll neg T ws = .ok ks) : classifyAll neg T (w :: ws) = .ok ((w, k) :: ks) := by
  rw [classifyAll, h]
  dsimp only
  rw [hs]

/-- `w` says `is`, and then needs a value. -/
def After (neg : Str → Bool) (T : Table) (w : Str) (is : List Item) (ws : List Str) (js : List Item) : Option Opt → Prop
  | none => Reading neg T (w :: ws) (is ++ js)
  | some p => ∀ v, Plain neg T v → Reading neg T (w :: v :: ws) (is ++ .act p (some v) :: js)

/-- What is read of text behind a short name. -/
theorem chain_reads (hT : WF T) {neg : Str → Bool} : ∀ {e : Str} {c : Char} {o : Opt} {is : List Item} {p : Option Opt},
    Named T ['-', c] o → chain T o e = .ok (is, p) → ∀ {ws js}, Reading neg T ws js →
      After neg T ('-' :: c :: e) is ws js p
  | [], c, o, is, p, hn, h, ws, js, hr => by
    unfold chain at h
    split at h
    · cases h
      exact fun v hv => .next (.inl hn) (by assumption) hv hr
    · cases h
      exact .flag (.inl hn) (by assumption) hr
  | x :: e, c, o, is, p, hn, h, ws, js, hr => by
    unfold chain at h
    split at h
    · cases h
    · rename_i hx
      split at h
      · cases h
        exact .attached hn (by assumption) hx hr
      · rename_i ho
        split at h
        · cases h
        · rename_i o' ho'
          have hn' := (find_some hT).1 ho'
          split at h
          · rename_i is' p' hc
            cases h
            have he : e.head? ≠ some '=' := by
              intro he
              cases e with
              | nil => cases he
              | cons y e =>
                injection he with he
                subst he
                unfold chain at hc
                cases hc
            have := chain_reads hT (neg := neg) hn' hc hr
            cases p with
            | none => exact .cluster hn ho hn' he this
            | some p => exact fun v hv => .cluster hn ho hn' he (this v hv)
          · cases h
          · cases h

theorem consume_reads (hT : WF T) {neg : Str → Bool} {w s : Str} {o : Opt} {g : Option Str} {eq : Bool} {is : List Item}
    {p : Option Opt} (hk : Kinds neg T w (.opt o s g eq)) (h : consume T o s g eq = .ok (is, p)) {ws js} (hr : Reading neg T ws js) :
    After neg T w is ws js p := by
  cases hk with
  | opt hs _ =>
    unfold consume at h
    dsimp only at h
    split at h
    · cases h
      exact fun v hv => .next hs (by assumption) hv hr
    · cases h
      exact .flag hs (by assumption) hr
  | joined hs _ =>
    unfold consume at h
    dsimp only at h
    split at h
    · cases h
      exact .joined hs (by assumption) hr
    · split at h
      · cases h
      · rw [if_pos rfl] at h
        cases h
  | short hn hx =>
    unfold consume at h
    dsimp only at h
    split at h
    · cases h
      exact .attached hn (by assumption) hx hr
    · split at h
      · cases h
      · rw [if_neg (by decide)] at h
        exact chain_reads hT hn h hr

theorem loop_reads (hT : WF T) {neg : Str → Bool} : ∀ {ks : List (Str × Kind)} {is : List Item},
    (∀ p ∈ ks, Kinds neg T p.1 p.2) → loop T ks = .ok is → Item.extra ∉ is → Reading neg T (ks.map Prod.fst) is
  | [], is, _, h, _ => by
    cases h
    exact .done
  | (w, .word) :: r, is, hk, h, hx => by
    rw [loop] at h
    split at h
    · rename_i js hj
      cases h
      have := hk _ List.mem_cons_self
      cases this with
      | word hp => exact .word hp (loop_reads hT (fun p hp => hk p (List.mem_cons_of_mem _ hp)) hj fun h => hx (List.mem_cons_of_mem _ h))
    · rename_i hj
      exact absurd h (hj is)
  | (w, .unknown) :: r, is, hk, h, hx => by
    rw [loop] at h
    split at h
    · cases h
      exact absurd List.mem_cons_self hx
    · rename_i hj
      exact absurd h (hj is)
  | (w, .opt o s g eq) :: r, is, hk, h, hx => by
    have hkw := hk _ List.mem_cons_self
    have hkr : ∀ p ∈ r, Kinds neg T p.1 p.2 := fun p hp => hk p (List.mem_cons_of_mem _ hp)
    unfold loop at h
    split at h
    · rename_i is' hc
      split at h
      · rename_i js hj
        cases h
        have := loop_reads hT hkr hj fun h => hx (List.mem_append_right _ h)
        exact consume_reads hT hkw hc this
      · rename_i hj
        exact absurd h (hj is)
    · rename_i is' p hc
      split at h
      · rename_i v r'
        split at h
        · rename_i js hj
          cases h
          have hv := hkr _ List.mem_cons_self
          cases hv with
          | word hv =>
            have := loop_reads hT (fun p hp => hkr p (List.mem_cons_of_mem _ hp)) hj
              fun h => hx (List.mem_append_right _ (List.mem_cons_of_mem _ h))
            exact consume_reads hT hkw hc this v hv
        · rename_i hj
          exact absurd h (hj is)
      · cases h
    · cases h
    · cases h

theorem classifyAll_kinds (hT : WF T) {neg : Str → Bool} : ∀ {ws : List Str} {ks : List (Str × Kind)},
    classifyAll neg T ws = .ok ks → ks.map Prod.fst = ws ∧ ∀ p ∈ ks, Kinds neg T p.1 p.2
  | [], ks, h => by
    cases h
    exact ⟨rfl, fun p hp => by cases hp⟩
  | w :: ws, ks, h => by
    rw [classifyAll] at h
    split at h
    · rename_i k hk
      split at h
      · rename_i r hr
        cases h
        obtain ⟨h1, h2⟩ := classifyAll_kinds hT hr
        refine ⟨by rw [List.map_cons, h1], fun p hp => ?_⟩
        rcases List.mem_cons.1 hp with rfl | hp
        · exact classify_ok hT hk
        · exact h2 p hp
      · cases h
      · cases h
    · cases h
    · cases h

/-- What is done is what the command line says. -/
theorem items_reads (hT : WF T) {neg : Str → Bool} {argv : List Str} {is : List Item} (h : items neg T argv = .ok is)
    (hx : Item.extra ∉ is) : Reading neg T argv is := by
  unfold items at h
  split at h
  · cases h
  · split at h
    · rename_i ks hk
      obtain ⟨h1, h2⟩ := classifyAll_kinds hT hk
      have := loop_reads hT h2 h hx
      rwa [h1] at this
    · cases h
    · cases h

/-! ### What the command line says is done -/

theorem consume_short {c : Char} {o : Opt} {r : Str} (hc : c ≠ '-') (hr : r.head? ≠ some '=') :
    consume T o ['-', c] (if r = [] then none else some r) false = chain T o r := by
  cases r with
  | nil =>
    rw [if_pos rfl]
    unfold consume chain
    rfl
  | cons x r =>
    rw [if_neg (by simp)]
    have hx : x ≠ '=' := fun e => hr (by rw [e]; rfl)
    have h2 : ¬ List.take 2 ['-', c] = py!"--" := by
      intro e
      injection e with _ e
      injection e with e
      exact hc e
    unfold consume
    dsimp only
    by_cases ho : o.act = .store
    · rw [if_pos ho]
      unfold chain
      rw [if_neg hx, if_pos ho]
    · rw [if_neg ho, if_neg h2, if_neg (by decide)]

theorem classify_dashed (hT : WF T) {neg : Str → Bool} {c : Char} {o : Opt} {r : Str} (hn : Named T ['-', c] o)
    (hr : r.head? ≠ some '=') :
    classify neg T ('-' :: c :: r) = .ok (.opt o ['-', c] (if r = [] then none else some r) false) := by
  cases r with
  | nil => exact classify_named hT hn
  | cons x r =>
    rw [if_neg (by simp)]
    exact classify_short hT hn fun e => hr (by rw [e]; rfl)

theorem chain_store {o : Opt} {x : Char} {v : Str} (hx : x ≠ '=') (ho : o.act = .store) :
    chain T o (x :: v) = .ok ([.act o (some (x :: v))], none) := by
  unfold chain
  rw [if_neg hx, if_pos ho]

/-- Items in front. -/
def prepend (is : List Item) : Out (List Item) → Out (List Item)
  | .ok js => .ok (is ++ js)
  | .exc e => .exc e
  | .diverge => .diverge

theorem prepend_nil (x : Out (List Item)) : prepend [] x = x := by cases x <;> rfl

theorem prepend_prepend (is js : List Item) (x : Out (List Item)) : prepend is (prepend js x) = prepend (is ++ js) x := by
  cases x with
  | ok ks => exact congrArg Out.ok (List.append_assoc ..).symm
  | exc e => rfl
  | diverge => rfl

theorem loop_word {w : Str} {r : List (Str × Kind)} : loop T ((w, .word) :: r) = prepend [.word w] (loop T r) := by
  rw [loop]
  cases loop T r <;> rfl

theorem loop_opt {w s : Str} {o : Opt} {g : Option Str} {eq : Bool} {r : List (Str × Kind)} {is : List Item}
    (h : consume T o s g eq = .ok (is, none)) : loop T ((w, .opt o s g eq) :: r) = prepend is (loop T r) := by
  rw [loop, h]
  dsimp only
  cases loop T r <;> rfl

theorem loop_opt_next {w s v : Str} {o p : Opt} {g : Option Str} {eq : Bool} {r : List (Str × Kind)} {is : List Item}
    (h : consume T o s g eq = .ok (is, some p)) :
    loop T ((w, .opt o s g eq) :: (v, .word) :: r) = prepend (is ++ [.act p (some v)]) (loop T r) := by
  rw [loop, h]
  dsimp only
  cases loop T r with
  | ok js => exact congrArg Out.ok (by rw [List.append_assoc]; rfl)
  | exc e => rfl
  | diverge => rfl

/-- A word that stands for more than one option: the first one comes first. -/
theorem loop_front {w w' s s' : Str} {o o' : Opt} {g g' : Option Str} {eq eq' : Bool} {i : Item} {r : List (Str × Kind)}
    (h : consume T o s g eq = match consume T o' s' g' eq' with
      | .ok (is, p) => .ok (i :: is, p)
      | .exc x => .exc x
      | .diverge => .diverge) :
    loop T ((w, .opt o s g eq) :: r) = prepend [i] (loop T ((w', .opt o' s' g' eq') :: r)) := by
  rw [loop, loop, h]
  cases consume T o' s' g' eq' with
  | ok q =>
    obtain ⟨is, p⟩ := q
    cases p with
    | none =>
      dsimp only
      cases loop T r <;> rfl
    | some p =>
      dsimp only
      split
      · rename_i r'
        cases loop T r' <;> rfl
      · rfl
  | exc e => rfl
  | diverge => rfl

theorem reads_loop (hT : WF T) {neg : Str → Bool} {argv : List Str} {is : List Item} (h : Reading neg T argv is) :
    ∃ ks, classifyAll neg T argv = .ok ks ∧ ∀ r, loop T (ks ++ r) = prepend is (loop T r) := by
  induction h with
  | done => exact ⟨[], rfl, fun r => (prepend_nil _).symm⟩
  | @word w ws is hp _ ih =>
    obtain ⟨ks, h1, h2⟩ := ih
    refine ⟨_, classifyAll_cons (classify_plain hT hp) h1, fun r => ?_⟩
    rw [List.cons_append, loop_word, h2, prepend_prepend]
    rfl
  | @flag s o ws is hs ho _ ih =>
    obtain ⟨ks, h1, h2⟩ := ih
    obtain ⟨n, _, hc, _⟩ := classify_spells hT (neg := neg) hs
    refine ⟨_, classifyAll_cons hc h1, fun r => ?_⟩
    rw [List.cons_append, loop_opt (is := [.act o none]) (by unfold consume; exact if_neg ho), h2, prepend_prepend]
    rfl
  | @next s o v ws is hs ho hv _ ih =>
    obtain ⟨ks, h1, h2⟩ := ih
    obtain ⟨n, _, hc, _⟩ := classify_spells hT (neg := neg) hs
    refine ⟨_, classifyAll_cons hc (classifyAll_cons (classify_plain hT hv) h1), fun r => ?_⟩
    rw [List.cons_append, List.cons_append, loop_opt_next (is := []) (by unfold consume; exact if_pos ho), h2, prepend_prepend]
    rfl
  | @joined s o v ws is hs ho _ ih =>
    obtain ⟨ks, h1, h2⟩ := ih
    obtain ⟨n, _, hc⟩ := classify_joined hT (neg := neg) (v := v) hs
    refine ⟨_, classifyAll_cons hc h1, fun r => ?_⟩
    rw [List.cons_append, loop_opt (is := [.act o (some v)]) (by unfold consume; exact if_pos ho), h2, prepend_prepend]
    rfl
  | @attached c o x v ws is hn ho hx _ ih =>
    obtain ⟨ks, h1, h2⟩ := ih
    refine ⟨_, classifyAll_cons (classify_short hT hn hx) h1, fun r => ?_⟩
    rw [List.cons_append, loop_opt (is := [.act o (some (x :: v))]) (by unfold consume; exact if_pos ho), h2, prepend_prepend]
    rfl
  | @cluster c d o o' r ws is hn ho hn' hr _ ih =>
    obtain ⟨ks, h1, h2⟩ := ih
    have hd := short_name hT hn'
    have hcn := short_name hT hn
    have hcl := classify_dashed hT (neg := neg) hn' hr
    obtain ⟨ks', hks', rfl⟩ : ∃ ks', classifyAll neg T ws = .ok ks' ∧
        ks = ('-' :: d :: r, .opt o' ['-', d] (if r = [] then none else some r) false) :: ks' := by
      rw [classifyAll, hcl] at h1
      dsimp only at h1
      split at h1
      · rename_i ks' hk
        cases h1
        exact ⟨ks', hk, rfl⟩
      · cases h1
      · cases h1
    refine ⟨_, classifyAll_cons (classify_short hT hn hd.2) hks', fun q => ?_⟩
    have hin := consume_short (T := T) (o := o') hd.1 hr
    have hout : consume T o ['-', c] (some (d :: r)) false =
        match consume T o' ['-', d] (if r = [] then none else some r) false with
        | .ok (is, p) => .ok (.act o none :: is, p)
        | .exc x => .exc x
        | .diverge => .diverge := by
      have e : consume T o ['-', c] (some (d :: r)) false = chain T o (d :: r) :=
        consume_short (r := d :: r) hcn.1 (by intro e; injection e with e; exact hd.2 e)
      rw [e, hin, chain, if_neg hd.2, if_neg ho, (find_some hT).2 hn']
      dsimp only
      cases chain T o' r <;> rfl
    have := h2 q
    rw [List.cons_append] at this
    rw [List.cons_append, loop_front hout, this, prepend_prepend]
    rfl

theorem Reading.no_dashes (hT : WF T) {neg : Str → Bool} {argv : List Str} {is : List Item} (h : Reading neg T argv is) :
    py!"--" ∉ argv := by
  have two : ∀ n, ¬ ∀ n' o', Named T n' o' → py!"--" <+: n' → n' = n := by
    intro n hu
    obtain ⟨a, ha, b, hb, hab, ha2, hb2⟩ := hT.two
    obtain ⟨⟨_, oa⟩, hma, rfl⟩ := List.mem_map.1 ha
    obtain ⟨⟨_, ob⟩, hmb, rfl⟩ := List.mem_map.1 hb
    exact hab ((hu _ _ (mem_strings.1 hma) (take2.1 ha2)).trans (hu _ _ (mem_strings.1 hmb) (take2.1 hb2)).symm)
  have hp : ¬ Plain neg T py!"--" := by
    rintro (h | h | ⟨h, _⟩)
    · exact h rfl
    · cases h
    · apply h
      obtain ⟨a, ha, _, _, _, ha2, _⟩ := hT.two
      obtain ⟨⟨_, oa⟩, hma, rfl⟩ := List.mem_map.1 ha
      exact .inl ⟨py!"--", _, oa, mem_strings.1 hma, List.prefix_refl _, take2.1 ha2, by decide, .inl rfl⟩
  have hs : ∀ o, ¬ Spells T py!"--" o := by
    rintro o (h | ⟨_, _, n, _, _, hu⟩)
    · have := hT.names _ (mem_strings.2 h)
      cases this
    · exact two n hu
  have step : ∀ {w : Str} {ws : List Str}, w ≠ py!"--" → py!"--" ∉ ws → py!"--" ∉ w :: ws := by
    intro w ws h1 h2 h
    rcases List.mem_cons.1 h with h | h
    · exact h1 h.symm
    · exact h2 h
  induction h with
  | done => exact fun h => by cases h
  | word hw _ ih => exact step (fun e => hp (e ▸ hw)) ih
  | flag h _ _ ih => exact step (fun e => hs _ (e ▸ h)) ih
  | next h _ hv _ ih => exact step (fun e => hs _ (e ▸ h)) (step (fun e => hp (e ▸ hv)) ih)
  | @joined s _ v _ _ _ _ _ ih =>
    refine step (fun e => ?_) ih
    have : '=' ∈ s ++ '=' :: v := List.mem_append_right _ List.mem_cons_self
    rw [e] at this
    exact absurd this (by decide)
  | attached _ _ _ _ ih => exact step (fun e => by cases e) ih
  | cluster _ _ _ _ _ ih => exact step (fun e => by cases e) fun h => ih (List.mem_cons_of_mem _ h)

theorem reads_items (hT : WF T) {neg : Str → Bool} {argv : List Str} {is : List Item} (h : Reading neg T argv is) :
    items neg T argv = .ok is := by
  obtain ⟨ks, h1, h2⟩ := reads_loop hT h
  unfold items
  rw [if_neg (h.no_dashes hT), h1]
  have := h2 []
  rw [List.append_nil] at this
  dsimp only
  rw [this]
  exact congrArg Out.ok (List.append_nil _)

/-- There is one way to read a command line. -/
theorem Reading.unique (hT : WF T) {neg : Str → Bool} {argv : List Str} {is js : List Item} (h : Reading neg T argv is)
    (h' : Reading neg T argv js) : is = js := by
  have := (reads_items hT h).symm.trans (reads_items hT h')
  injection this

theorem Reading.append {neg : Str → Bool} {a b : List Str} {is js : List Item} (h : Reading neg T a is) (h' : Reading neg T b js) :
    Reading neg T (a ++ b) (is ++ js) := by
  induction h with
  | done => exact h'
  | word h1 _ ih => exact .word h1 ih
  | flag h1 h2 _ ih => exact .flag h1 h2 ih
  | next h1 h2 h3 _ ih => exact .next h1 h2 h3 ih
  | joined h1 h2 _ ih => exact .joined h1 h2 ih
  | attached h1 h2 h3 _ ih => exact .attached h1 h2 h3 ih
  | cluster h1 h2 h3 h4 _ ih => exact .cluster h1 h2 h3 h4 ih

/-- Only options of the tool, and those that take a value have one. -/
theorem Reading.acts {neg : Str → Bool} {argv : List Str} {is : List Item} (h : Reading neg T argv is) :
    (∀ o v, Item.act o v ∈ is → o ∈ T ∧ (o.act = .store ↔ v ≠ none)) ∧ Item.extra ∉ is := by
  have named : ∀ {s o}, Spells T s o → o ∈ T := by
    rintro s o (h | ⟨_, _, n, hn, _⟩)
    · exact h.1
    · exact hn.1
  have step : ∀ {o : Opt} {v : Option Str} {is : List Item}, o ∈ T → (o.act = .store ↔ v ≠ none) →
      ((∀ o v, Item.act o v ∈ is → o ∈ T ∧ (o.act = .store ↔ v ≠ none)) ∧ Item.extra ∉ is) →
      (∀ o' v', Item.act o' v' ∈ Item.act o v :: is → o' ∈ T ∧ (o'.act = .store ↔ v' ≠ none)) ∧
        Item.extra ∉ Item.act o v :: is := by
    intro o v is h1 h2 ⟨h3, h4⟩
    refine ⟨fun o' v' h => ?_, fun h => ?_⟩
    · rcases List.mem_cons.1 h with h | h
      · cases h; exact ⟨h1, h2⟩
      · exact h3 _ _ h
    · rcases List.mem_cons.1 h with h | h
      · cases h
      · exact h4 h
  induction h with
  | done => exact ⟨fun _ _ h => (by cases h), fun h => (by cases h)⟩
  | word _ _ ih =>
    refine ⟨fun o v h => ?_, fun h => ?_⟩
    · rcases List.mem_cons.1 h with h | h
      · cases h
      · exact ih.1 _ _ h
    · rcases List.mem_cons.1 h with h | h
      · cases h
      · exact ih.2 h
  | flag h1 h2 _ ih => exact step (named h1) ⟨fun h => absurd h h2, fun h => absurd rfl h⟩ ih
  | next h1 h2 _ _ ih => exact step (named h1) ⟨fun _ => by simp, fun _ => h2⟩ ih
  | joined h1 h2 _ ih => exact step (named h1) ⟨fun _ => by simp, fun _ => h2⟩ ih
  | attached h1 h2 _ _ ih => exact step h1.1 ⟨fun _ => by simp, fun _ => h2⟩ ih
  | cluster h1 h2 _ _ _ ih => exact step h1.1 ⟨fun h => absurd h h2, fun h => absurd rfl h⟩ ih

theorem classifyAll_append {neg : Str → Bool} : ∀ {a b : List Str} {ka : List (Str × Kind)}, classifyAll neg T a = .ok ka →
    classifyAll neg T (a ++ b) = match classifyAll neg T b with
      | .ok kb => .ok (ka ++ kb)
      | .exc e => .exc e
      | .diverge => .diverge
  | [], b, ka, h => by
    cases h
    rw [List.nil_append]
    cases classifyAll neg T b <;> rfl
  | w :: a, b, ka, h => by
    rw [classifyAll] at h
    rw [List.cons_append, classifyAll]
    split at h
    · rename_i k hk
      split at h
      · rename_i r hr
        cases h
        try rw [hk]
        try dsimp only
        rw [classifyAll_append hr]
        cases classifyAll neg T b <;> rfl
      · cases h
      · cases h
    · cases h
    · cases h

/-- What is left of a command line when its beginning has been read. -/
theorem Reading.rest (hT : WF T) {neg : Str → Bool} {a b : List Str} {is js : List Item} (h : Reading neg T a is)
    (h' : Reading neg T (a ++ b) js) : ∃ ks, js = is ++ ks ∧ Reading neg T b ks := by
  obtain ⟨ka, h1, h2⟩ := reads_loop hT h
  have hi := reads_items hT h'
  unfold items at hi
  rw [if_neg (h'.no_dashes hT), classifyAll_append h1] at hi
  cases hb : classifyAll neg T b with
  | ok kb =>
    rw [hb] at hi
    dsimp only at hi
    rw [h2] at hi
    cases hl : loop T kb with
    | ok ks =>
      rw [hl] at hi
      injection hi with hi
      obtain ⟨e, hk⟩ := classifyAll_kinds hT hb
      have := loop_reads hT hk hl fun hm => h'.acts.2 (by rw [← hi]; exact List.mem_append_right _ hm)
      exact ⟨ks, hi.symm, e ▸ this⟩
    | exc e => rw [hl] at hi; cases hi
    | diverge => rw [hl] at hi; cases hi
  | exc e => rw [hb] at hi; cases hi
  | diverge => rw [hb] at hi; cases hi

/-! ### Other outcomes -/

/-- The ways in which a command line is refused. -/
def Refused {α : Type} (argv : List Str) (x : Out α) : Prop := x = .exc .systemExit ∨ (x = notModelled ∧ ∃ w ∈ argv, Odd w)

theorem chain_else : ∀ {e : Str} {o : Opt}, (∃ q, chain T o e = .ok q) ∨ chain T o e = .exc .systemExit ∨
    (chain T o e = notModelled ∧ '=' ∈ e)
  | [], o => by
    unfold chain
    split
    · exact .inl ⟨_, rfl⟩
    · exact .inl ⟨_, rfl⟩
  | c :: e, o => by
    unfold chain
    split
    · rename_i hc
      exact .inr (.inr ⟨rfl, by rw [hc]; exact List.mem_cons_self⟩)
    · split
      · exact .inl ⟨_, rfl⟩
      · split
        · exact .inr (.inl rfl)
        · rename_i o' _
          rcases chain_else (e := e) (o := o') with ⟨q, h⟩ | h | ⟨h, he⟩
          · rw [h]
            exact .inl ⟨_, rfl⟩
          · rw [h]
            exact .inr (.inl rfl)
          · rw [h]
            exact .inr (.inr ⟨rfl, List.mem_cons_of_mem _ he⟩)

theorem consume_else (hT : WF T) {neg : Str → Bool} {w s : Str} {o : Opt} {g : Option Str} {eq : Bool}
    (hk : Kinds neg T w (.opt o s g eq)) : (∃ q, consume T o s g eq = .ok q) ∨ consume T o s g eq = .exc .systemExit ∨
      (consume T o s g eq = notModelled ∧ Odd w) := by
  cases hk with
  | opt hs _ =>
    unfold consume
    dsimp only
    split <;> exact .inl ⟨_, rfl⟩
  | @joined s' v _ _ hs h2 =>
    unfold consume
    dsimp only
    split
    · exact .inl ⟨_, rfl⟩
    · split
      · exact .inr (.inl rfl)
      · rename_i h3
        rw [if_pos rfl]
        refine .inr (.inr ⟨rfl, ?_⟩)
        rcases hs with hs | ⟨hl, _⟩
        · obtain ⟨c, rfl, hc, _⟩ := hT.long hs fun e => h3 (h2.2 e)
          exact .inr ⟨c, '=' :: v, hc, rfl, List.mem_cons_self⟩
        · exact absurd (h2.2 (take2.2 hl)) h3
  | @short c x v _ hn hx =>
    unfold consume
    dsimp only
    split
    · exact .inl ⟨_, rfl⟩
    · split
      · exact .inr (.inl rfl)
      · rw [if_neg (by decide)]
        rcases chain_else (T := T) (e := x :: v) (o := o) with h | h | ⟨h, he⟩
        · exact .inl h
        · exact .inr (.inl h)
        · exact .inr (.inr ⟨h, .inr ⟨c, x :: v, (short_name hT hn).1, rfl, he⟩⟩)

theorem loop_else (hT : WF T) {neg : Str → Bool} : ∀ {ks : List (Str × Kind)}, (∀ p ∈ ks, Kinds neg T p.1 p.2) →
    (∃ is, loop T ks = .ok is) ∨ Refused (ks.map Prod.fst) (loop T ks)
  | [], _ => .inl ⟨_, rfl⟩
  | (w, .word) :: r, hk => by
    rw [loop]
    rcases loop_else hT (fun p hp => hk p (List.mem_cons_of_mem _ hp)) with ⟨is, h⟩ | h | ⟨h, x, hx, ho⟩
    · rw [h]; exact .inl ⟨_, rfl⟩
    · rw [h]; exact .inr (.inl rfl)
    · rw [h]; exact .inr (.inr ⟨rfl, x, List.mem_cons_of_mem _ hx, ho⟩)
  | (w, .unknown) :: r, hk => by
    rw [loop]
    rcases loop_else hT (fun p hp => hk p (List.mem_cons_of_mem _ hp)) with ⟨is, h⟩ | h | ⟨h, x, hx, ho⟩
    · rw [h]; exact .inl ⟨_, rfl⟩
    · rw [h]; exact .inr (.inl rfl)
    · rw [h]; exact .inr (.inr ⟨rfl, x, List.mem_cons_of_mem _ hx, ho⟩)
  | (w, .opt o s g eq) :: r, hk => by
    have hkw := hk _ List.mem_cons_self
    have hkr : ∀ p ∈ r, Kinds neg T p.1 p.2 := fun p hp => hk p (List.mem_cons_of_mem _ hp)
    unfold loop
    rcases consume_else hT hkw with ⟨⟨is, p⟩, h⟩ | h | ⟨h, ho⟩
    · rw [h]
      cases p with
      | none =>
        dsimp only
        rcases loop_else hT hkr with ⟨is, h⟩ | h | ⟨h, x, hx, ho⟩
        · rw [h]; exact .inl ⟨_, rfl⟩
        · rw [h]; exact .inr (.inl rfl)
        · rw [h]; exact .inr (.inr ⟨rfl, x, List.mem_cons_of_mem _ hx, ho⟩)
      | some p =>
        dsimp only
        split
        · rename_i v r'
          rcases loop_else hT (fun p hp => hkr p (List.mem_cons_of_mem _ hp)) with ⟨is, h⟩ | h | ⟨h, x, hx, ho⟩
          · rw [h]; exact .inl ⟨_, rfl⟩
          · rw [h]; exact .inr (.inl rfl)
          · rw [h]; exact .inr (.inr ⟨rfl, x, List.mem_cons_of_mem _ (List.mem_cons_of_mem _ hx), ho⟩)
        · exact .inr (.inl rfl)
    · rw [h]; exact .inr (.inl rfl)
    · rw [h]; exact .inr (.inr ⟨rfl, w, List.mem_cons_self, ho⟩)

theorem classifyAll_else (hT : WF T) {neg : Str → Bool} : ∀ {ws : List Str},
    (∃ ks, classifyAll neg T ws = .ok ks) ∨ classifyAll neg T ws = .exc .systemExit
  | [] => .inl ⟨_, rfl⟩
  | w :: ws => by
    rw [classifyAll]
    rcases classify_kinds hT (neg := neg) (w := w) with ⟨k, h, _⟩ | h
    · rw [h]
      dsimp only
      rcases classifyAll_else hT (neg := neg) (ws := ws) with ⟨ks, h⟩ | h
      · rw [h]; exact .inl ⟨_, rfl⟩
      · rw [h]; exact .inr rfl
    · rw [h]; exact .inr rfl

theorem items_else (hT : WF T) {neg : Str → Bool} {argv : List Str} :
    (∃ is, items neg T argv = .ok is) ∨ Refused argv (items neg T argv) := by
  unfold items
  split
  · rename_i h
    exact .inr (.inr ⟨rfl, _, h, .inl rfl⟩)
  · rcases classifyAll_else hT (neg := neg) (ws := argv) with ⟨ks, h⟩ | h
    · rw [h]
      dsimp only
      obtain ⟨h1, h2⟩ := classifyAll_kinds hT h
      have := loop_else hT h2
      rwa [h1] at this
    · rw [h]
      exact .inr (.inl rfl)

/-! ### The namespace -/

/-- What is last done to a dest. -/
def lastSet (resolve : Str → Str) (d : Str) : List Item → Option NVal
  | [] => none
  | .act o v :: is => match lastSet resolve d is with
    | some x => some x
    | none => if o.dest = d then
        match o.act with
        | .flag b => some (.bool b)
        | .store => some (.text (resolve (v.getD [])))
        | .help => none
      else none
  | _ :: is => lastSet resolve d is

theorem lastSet_cons {resolve : Str → Str} {d : Str} {o : Opt} {v : Option Str} {is : List Item} :
    lastSet resolve d (.act o v :: is) = match lastSet resolve d is with
      | some x => some x
      | none => if o.dest = d then
          match o.act with
          | .flag b => some (.bool b)
          | .store => some (.text (resolve (v.getD [])))
          | .help => none
        else none := rfl

/-- Someone asks for help. -/
theorem performAll_help {resolve : Str → Str} : ∀ {is : List Item} {st}, (∃ o v, Item.act o v ∈ is ∧ o.act = .help) →
    performAll resolve is st = .exc .systemExit
  | [], _, ⟨_, _, h, _⟩ => by cases h
  | i :: is, (ns, seen, extra), ⟨o, v, h, ho⟩ => by
    rcases List.mem_cons.1 h with h | h
    · subst h
      rw [performAll, perform, ho]
    · rw [performAll]
      have ih := fun st => performAll_help (resolve := resolve) (is := is) (st := st) ⟨o, v, h, ho⟩
      cases i with
      | word w =>
        rw [perform]
        split
        · rename_i heq
          exact ih _
        · rename_i heq
          split at heq <;> cases heq
        · rename_i heq
          split at heq <;> cases heq
      | extra => exact ih _
      | act o' v' =>
        rw [perform]
        cases o'.act with
        | help => rfl
        | flag b => exact ih _
        | store => exact ih _

theorem performAll_ok {resolve : Str → Str} : ∀ {is : List Item} {ns : Namespace} {seen extra : Bool},
    (∀ o v, Item.act o v ∈ is → o.act ≠ .help ∧ o.dest ≠ py!"build_name") →
    ∃ ns' seen' extra', performAll resolve is (ns, seen, extra) = .ok (ns', seen', extra') ∧
      (extra' = true ↔ extra = true ∨ Item.extra ∈ is ∨ 1 < (wordsOf is).length + (if seen = true then 1 else 0)) ∧
      (∀ d, d ≠ py!"build_name" → Dict.get? ns' d = (lastSet resolve d is).or (Dict.get? ns d)) ∧
      (seen = true → Dict.get? ns' py!"build_name" = Dict.get? ns py!"build_name") ∧
      (seen = false → Dict.get? ns' py!"build_name" = ((wordsOf is).head?.map NVal.text).or (Dict.get? ns py!"build_name"))
  | [], ns, seen, extra, _ => by
    refine ⟨ns, seen, extra, rfl, ?_, fun d _ => rfl, fun _ => rfl, fun _ => rfl⟩
    constructor
    · exact .inl
    · rintro (h | h | h)
      · exact h
      · cases h
      · exfalso
        cases seen <;> simp [wordsOf] at h
  | .word w :: is, ns, seen, extra, hd => by
    have hd' : ∀ o v, Item.act o v ∈ is → o.act ≠ .help ∧ o.dest ≠ py!"build_name" :=
      fun o v h => hd o v (List.mem_cons_of_mem _ h)
    have hx : (Item.extra ∈ Item.word w :: is) ↔ Item.extra ∈ is :=
      ⟨fun h => (by rcases List.mem_cons.1 h with h | h; cases h; exact h), List.mem_cons_of_mem _⟩
    cases seen with
    | true =>
      obtain ⟨ns', seen', extra', h1, h2, h3, h4, _⟩ := performAll_ok (is := is) (resolve := resolve) (ns := ns) (seen := true)
        (extra := true) hd'
      refine ⟨ns', seen', extra', h1, ?_, h3, h4, fun h => by cases h⟩
      rw [h2]
      constructor
      · intro _
        right; right
        simp [wordsOf]
      · exact fun _ => .inl rfl
    | false =>
      obtain ⟨ns', seen', extra', h1, h2, h3, h4, _⟩ := performAll_ok (is := is) (resolve := resolve)
        (ns := Dict.set ns py!"build_name" (.text w)) (seen := true) (extra := extra) hd'
      refine ⟨ns', seen', extra', h1, ?_, ?_, (fun h => by cases h), ?_⟩
      · rw [h2, hx]
        rfl
      · intro d hdb
        rw [h3 d hdb, Dict.get?_set_ne _ _ hdb]
        rfl
      · intro _
        rw [h4 rfl, Dict.get?_set_self]
        rfl
  | .extra :: is, ns, seen, extra, hd => by
    have hd' : ∀ o v, Item.act o v ∈ is → o.act ≠ .help ∧ o.dest ≠ py!"build_name" :=
      fun o v h => hd o v (List.mem_cons_of_mem _ h)
    obtain ⟨ns', seen', extra', h1, h2, h3, h4, h5⟩ := performAll_ok (is := is) (resolve := resolve) (ns := ns) (seen := seen)
      (extra := true) hd'
    refine ⟨ns', seen', extra', h1, ?_, h3, h4, h5⟩
    rw [h2]
    exact ⟨fun _ => .inr (.inl List.mem_cons_self), fun _ => .inl rfl⟩
  | .act o v :: is, ns, seen, extra, hd => by
    have hd' : ∀ o v, Item.act o v ∈ is → o.act ≠ .help ∧ o.dest ≠ py!"build_name" :=
      fun o v h => hd o v (List.mem_cons_of_mem _ h)
    obtain ⟨hh, hb⟩ := hd o v List.mem_cons_self
    have hx : (Item.extra ∈ Item.act o v :: is) ↔ Item.extra ∈ is :=
      ⟨fun h => (by rcases List.mem_cons.1 h with h | h; cases h; exact h), List.mem_cons_of_mem _⟩
    have key : ∀ x : NVal, perform resolve (.act o v) (ns, seen, extra) = .ok (Dict.set ns o.dest x, seen, extra) →
        (∀ d, lastSet resolve d (.act o v :: is) = match lastSet resolve d is with
          | some y => some y
          | none => if o.dest = d then some x else none) → 
        ∃ ns' seen' extra', performAll resolve (.act o v :: is) (ns, seen, extra) = .ok (ns', seen', extra') ∧
        (extra' = true ↔ extra = true ∨ Item.extra ∈ Item.act o v :: is ∨ 1 < (wordsOf (.act o v :: is)).length + (if seen = true then 1 else 0)) ∧
        (∀ d, d ≠ py!"build_name" → Dict.get? ns' d = (lastSet resolve d (.act o v :: is)).or (Dict.get? ns d)) ∧
        (seen = true → Dict.get? ns' py!"build_name" = Dict.get? ns py!"build_name") ∧
        (seen = false → Dict.get? ns' py!"build_name" = ((wordsOf (.act o v :: is)).head?.map NVal.text).or (Dict.get? ns py!"build_name")) := by
      intro x hp hl
      obtain ⟨ns', seen', extra', h1, h2, h3, h4, h5⟩ := performAll_ok (is := is) (resolve := resolve)
        (ns := Dict.set ns o.dest x) (seen := seen) (extra := extra) hd'
      refine ⟨ns', seen', extra', ?_, ?_, ?_, ?_, ?_⟩
      · rw [performAll, hp]
        exact h1
      · rw [h2, hx]
        rfl
      · intro d hdb
        rw [h3 d hdb, hl, Dict.get?_set]
        cases lastSet resolve d is with
        | some y => rfl
        | none =>
          dsimp only
          by_cases e : o.dest = d
          · rw [if_pos e, if_pos (by first | exact e | exact e.symm)]; try rfl
          · rw [if_neg e, if_neg (by first | exact e | exact fun h => e h.symm)]; try rfl
      · intro hs
        rw [h4 hs, Dict.get?_set_ne _ _ hb.symm]
      · intro hs
        rw [h5 hs, Dict.get?_set_ne _ _ hb.symm]
        rfl
    cases ha : o.act with
    | help => exact absurd ha hh
    | flag b => exact key (.bool b) (by rw [perform, ha]) (fun d => by rw [lastSet_cons, ha])
    | store => exact key (.text (resolve (v.getD []))) (by rw [perform, ha]) (fun d => by rw [lastSet_cons, ha])

/-- The namespace that a reading gives. -/
def Holds (resolve : Str → Str) (T : Table) (is : List Item) (ns : Namespace) : Prop :=
  (∀ d, d ≠ py!"build_name" → Dict.get? ns d = (lastSet resolve d is).or (Dict.get? (defaults T) d)) ∧
  Dict.get? ns py!"build_name" = ((wordsOf is).head?.map NVal.text).or (Dict.get? (defaults T) py!"build_name")

theorem parse_of_reads (hT : WF T) (hb : ∀ o ∈ T, o.dest ≠ py!"build_name") {resolve : Str → Str} {neg : Str → Bool}
    {argv : List Str} {is : List Item} (h : Reading neg T argv is) (hu : Usable is) :
    ∃ ns, parseArgs resolve neg T argv = .ok ns ∧ Holds resolve T is ns := by
  obtain ⟨ns, seen, extra, h1, h2, h3, _, h5⟩ := performAll_ok (is := is) (resolve := resolve) (ns := defaults T)
    (seen := false) (extra := false) (fun o v hm => ⟨hu.2 o v hm, hb o (h.acts.1 o v hm).1⟩)
  refine ⟨ns, ?_, h3, h5 rfl⟩
  have hx : extra = false := by
    cases extra with
    | false => rfl
    | true =>
      rcases h2.1 rfl with h' | h' | h'
      · cases h'
      · exact absurd h' h.acts.2
      · have := hu.1
        simp at h'
        omega
  unfold parseArgs
  rw [reads_items hT h]
  dsimp only
  rw [h1, hx]
  rfl

/-- A second word, or a cry for help. -/
theorem parse_unusable (hT : WF T) (hb : ∀ o ∈ T, o.dest ≠ py!"build_name") {resolve : Str → Str} {neg : Str → Bool}
    {argv : List Str} {is : List Item} (h : Reading neg T argv is) (hu : ¬ Usable is) :
    parseArgs resolve neg T argv = .exc .systemExit := by
  unfold parseArgs
  rw [reads_items hT h]
  dsimp only
  by_cases hh : ∃ o v, Item.act o v ∈ is ∧ o.act = .help
  · rw [performAll_help hh]
  · have hh' : ∀ o v, Item.act o v ∈ is → o.act ≠ .help := fun o v hm ha => hh ⟨o, v, hm, ha⟩
    obtain ⟨ns, seen, extra, h1, h2, _⟩ := performAll_ok (is := is) (resolve := resolve) (ns := defaults T)
      (seen := false) (extra := false) (fun o v hm => ⟨hh' o v hm, hb o (h.acts.1 o v hm).1⟩)
    have hl : ¬ (wordsOf is).length ≤ 1 := fun hl => hu ⟨hl, hh'⟩
    rw [h1, h2.2 (.inr (.inr (by simp; omega)))]
    rfl

theorem reads_of_parse (hT : WF T) (hb : ∀ o ∈ T, o.dest ≠ py!"build_name") {resolve : Str → Str} {neg : Str → Bool}
    {argv : List Str} :
    (∃ ns is, parseArgs resolve neg T argv = .ok ns ∧ Reading neg T argv is ∧ Usable is) ∨
    Refused argv (parseArgs resolve neg T argv) := by
  unfold parseArgs
  rcases items_else hT (neg := neg) (argv := argv) with ⟨is, h⟩ | h | ⟨h, hw⟩
  · rw [h]
    dsimp only
    by_cases hh : ∃ o v, Item.act o v ∈ is ∧ o.act = .help
    · rw [performAll_help hh]
      exact .inr (.inl rfl)
    · have hh' : ∀ o v, Item.act o v ∈ is → o.act ≠ .help := fun o v hm ha => hh ⟨o, v, hm, ha⟩
      by_cases hx : Item.extra ∈ is
      · -- the dests do not matter here
        have hex : ∀ {is : List Item} {st : Namespace × Bool × Bool}, (∀ o v, Item.act o v ∈ is → o.act ≠ .help) →
            ∃ ns seen extra, performAll resolve is st = .ok (ns, seen, extra) ∧
              ((st.2.2 = true ∨ Item.extra ∈ is) → extra = true) := by
          intro is
          induction is with
          | nil =>
            rintro ⟨ns, seen, extra⟩ _
            refine ⟨ns, seen, extra, rfl, ?_⟩
            rintro (h | h)
            · exact h
            · cases h
          | cons i is ih =>
            rintro ⟨ns, seen, extra⟩ hh
            have hh2 : ∀ o v, Item.act o v ∈ is → o.act ≠ .help := fun o v h => hh o v (List.mem_cons_of_mem _ h)
            have go : ∀ st', perform resolve i (ns, seen, extra) = .ok st' → ((extra = true ∨ i = .extra) → st'.2.2 = true) →
                ∃ ns' seen' extra', performAll resolve (i :: is) (ns, seen, extra) = .ok (ns', seen', extra') ∧
                  ((extra = true ∨ Item.extra ∈ i :: is) → extra' = true) := by
              intro st' hp he
              obtain ⟨a, b, c, h1, h2⟩ := ih (st := st') hh2
              refine ⟨a, b, c, by rw [performAll, hp]; exact h1, fun h => h2 ?_⟩
              rcases h with h | h
              · exact .inl (he (.inl h))
              · rcases List.mem_cons.1 h with h | h
                · exact .inl (he (.inr h.symm))
                · exact .inr h
            cases i with
            | word w =>
              cases seen with
              | true => exact go _ rfl fun _ => rfl
              | false =>
                refine go _ rfl fun h => ?_
                rcases h with h | h
                · exact h
                · cases h
            | extra => exact go _ rfl fun _ => rfl
            | act o v =>
              have := hh o v List.mem_cons_self
              have fin : ∀ x, perform resolve (.act o v) (ns, seen, extra) = .ok (Dict.set ns o.dest x, seen, extra) →
                  ∃ ns' seen' extra', performAll resolve (.act o v :: is) (ns, seen, extra) = .ok (ns', seen', extra') ∧
                  ((extra = true ∨ Item.extra ∈ Item.act o v :: is) → extra' = true) := by
                intro x hp
                refine go _ hp fun h => ?_
                rcases h with h | h
                · exact h
                · cases h
              cases ha : o.act with
              | help => exact absurd ha this
              | flag b => exact fin (.bool b) (by rw [perform, ha])
              | store => exact fin (.text (resolve (v.getD []))) (by rw [perform, ha])
        obtain ⟨ns, seen, extra, h1, h2⟩ := hex (st := (defaults T, false, false)) hh'
        rw [h1, h2 (.inr hx)]
        exact .inr (.inl rfl)
      · have hr := items_reads hT h hx
        obtain ⟨ns, seen, extra, h1, h2, _⟩ := performAll_ok (is := is) (resolve := resolve) (ns := defaults T)
          (seen := false) (extra := false) (fun o v hm => ⟨hh' o v hm, hb o (hr.acts.1 o v hm).1⟩)
        rw [h1]
        cases extra with
        | true => exact .inr (.inl rfl)
        | false =>
          refine .inl ⟨ns, is, rfl, hr, ?_, hh'⟩
          apply Classical.byContradiction
          intro hl
          have := h2.2 (.inr (.inr (by simp; omega)))
          cases this
  · rw [h]
    exact .inr (.inl rfl)
  · rw [h]
    exact .inr (.inr ⟨rfl, hw⟩)

/-! ### Single results -/

theorem lastSet_value {resolve : Str → Str} {d : Str} : ∀ {is : List Item},
    (∀ o v, Item.act o v ∈ is → (o.dest = d → o.act = .store) ∧ (o.act = .store ↔ v ≠ none)) →
    lastSet resolve d is = (lastValue d is).map fun v => .text (resolve v)
  | [], _ => rfl
  | .word _ :: is, h => lastSet_value (is := is) fun o v hm => h o v (List.mem_cons_of_mem _ hm)
  | .extra :: is, h => lastSet_value (is := is) fun o v hm => h o v (List.mem_cons_of_mem _ hm)
  | .act o v :: is, h => by
    have ih := lastSet_value (resolve := resolve) (is := is) fun o v hm => h o v (List.mem_cons_of_mem _ hm)
    obtain ⟨h1, h2⟩ := h o v List.mem_cons_self
    rw [lastSet_cons, ih]
    cases v with
    | none =>
      have hd : o.dest ≠ d := fun e => absurd rfl (h2.1 (h1 e))
      rw [if_neg hd]
      show _ = (lastValue d is).map fun v => NVal.text (resolve v)
      cases lastValue d is <;> rfl
    | some v =>
      rw [lastValue]
      cases lastValue d is with
      | some x => rfl
      | none =>
        dsimp only [Option.map]
        by_cases e : o.dest = d
        · rw [if_pos e, if_pos e, h1 e]
          rfl
        · rw [if_neg e, if_neg e]

theorem text_of {resolve : Str → Str} {neg : Str → Bool} {argv : List Str} {is : List Item} {ns : Namespace} {d : Str}
    (h : Reading neg T argv is) (hh : Holds resolve T is ns) (hd : d ≠ py!"build_name")
    (hs : ∀ o ∈ T, o.dest = d → o.act = .store) (hdef : Dict.get? (defaults T) d = some .none) :
    ns.text? d = (lastValue d is).map resolve := by
  unfold Namespace.text?
  rw [hh.1 d hd, hdef, lastSet_value fun o v hm => ⟨hs o (h.acts.1 o v hm).1, (h.acts.1 o v hm).2⟩]
  cases lastValue d is <;> rfl

theorem lastSet_flag {resolve : Str → Str} {d : Str} : ∀ {is : List Item},
    (∀ o v, Item.act o v ∈ is → o.dest = d → o.act = .flag true) →
    lastSet resolve d is = if switched d is = true then some (.bool true) else none
  | [], _ => rfl
  | .word _ :: is, h => lastSet_flag (is := is) fun o v hm => h o v (List.mem_cons_of_mem _ hm)
  | .extra :: is, h => lastSet_flag (is := is) fun o v hm => h o v (List.mem_cons_of_mem _ hm)
  | .act o v :: is, h => by
    have ih := lastSet_flag (resolve := resolve) (is := is) fun o v hm => h o v (List.mem_cons_of_mem _ hm)
    have h1 := h o v List.mem_cons_self
    rw [lastSet_cons, ih, switched]
    cases switched d is with
    | true =>
      rw [if_pos rfl, Bool.or_true, if_pos rfl]
    | false =>
      rw [if_neg (by decide)]
      dsimp only
      by_cases e : o.dest = d
      · rw [if_pos e, h1 e, if_pos (by simp [e])]
      · rw [if_neg e, if_neg (by simp [e])]

theorem flag_of {resolve : Str → Str} {neg : Str → Bool} {argv : List Str} {is : List Item} {ns : Namespace} {d : Str}
    (h : Reading neg T argv is) (hh : Holds resolve T is ns) (hd : d ≠ py!"build_name")
    (hs : ∀ o ∈ T, o.dest = d → o.act = .flag true) (hdef : Dict.get? (defaults T) d = some (.bool false)) :
    ns.flag d = switched d is := by
  unfold Namespace.flag
  rw [hh.1 d hd, hdef, lastSet_flag fun o v hm => hs o (h.acts.1 o v hm).1]
  cases switched d is <;> decide

theorem build_of {resolve : Str → Str} {is : List Item} {ns : Namespace} (hh : Holds resolve T is ns)
    (hdef : Dict.get? (defaults T) py!"build_name" = some (.text [])) :
    (ns.text? py!"build_name").getD [] = (wordsOf is).headD [] := by
  unfold Namespace.text?
  rw [hh.2, hdef]
  cases wordsOf is <;> rfl

end

/-! ### The two tools -/

theorem leTable_eq : leTable = leUsage := rfl
theorem gcTable_eq : gcTable = gcUsage := rfl

theorem le_wf : WF leUsage where
  names := by decide +kernel
  nodup := by decide +kernel
  two := ⟨py!"--output", by decide +kernel, py!"--force", by decide +kernel, by decide +kernel, by decide +kernel, by decide +kernel⟩

theorem gc_wf : WF gcUsage where
  names := by decide +kernel
  nodup := by decide +kernel
  two := ⟨py!"--yes", by decide +kernel, py!"--force", by decide +kernel, by decide +kernel, by decide +kernel, by decide +kernel⟩

theorem le_parse {resolve : Str → Str} {neg : Str → Bool} {argv : List Str} {is : List Item} (h : Reading neg leUsage argv is)
    (hu : Usable is) : leParse resolve neg argv = .ok (leMeaning resolve is) := by
  obtain ⟨ns, h1, hh⟩ := parse_of_reads le_wf (by decide +kernel) (resolve := resolve) h hu
  unfold leParse
  rw [leTable_eq, h1]
  dsimp only
  rw [build_of hh (by decide +kernel),
    flag_of (d := py!"list_envs") h hh (by decide +kernel) (by decide +kernel) (by decide +kernel),
    flag_of (d := py!"force") h hh (by decide +kernel) (by decide +kernel) (by decide +kernel),
    text_of (d := py!"output") h hh (by decide +kernel) (by decide +kernel) (by decide +kernel),
    text_of (d := py!"supported_systems_file") h hh (by decide +kernel) (by decide +kernel) (by decide +kernel),
    text_of (d := py!"supported_envs_file") h hh (by decide +kernel) (by decide +kernel) (by decide +kernel),
    text_of (d := py!"environment_specs_file") h hh (by decide +kernel) (by decide +kernel) (by decide +kernel),
    text_of (d := py!"load_matching_env_location") h hh (by decide +kernel) (by decide +kernel) (by decide +kernel)]
  rfl

theorem gc_parse {resolve : Str → Str} {neg : Str → Bool} {argv : List Str} {is : List Item} (h : Reading neg gcUsage argv is)
    (hu : Usable is) : gcParse resolve neg argv = .ok (gcMeaning resolve is) := by
  obtain ⟨ns, h1, hh⟩ := parse_of_reads gc_wf (by decide +kernel) (resolve := resolve) h hu
  unfold gcParse
  rw [gcTable_eq, h1]
  dsimp only
  rw [build_of hh (by decide +kernel),
    flag_of (d := py!"list_configs") h hh (by decide +kernel) (by decide +kernel) (by decide +kernel),
    flag_of (d := py!"list_config_flags") h hh (by decide +kernel) (by decide +kernel) (by decide +kernel),
    flag_of (d := py!"force") h hh (by decide +kernel) (by decide +kernel) (by decide +kernel),
    flag_of (d := py!"yes") h hh (by decide +kernel) (by decide +kernel) (by decide +kernel),
    flag_of (d := py!"ci_mode") h hh (by decide +kernel) (by decide +kernel) (by decide +kernel),
    text_of (d := py!"cmake_fragment") h hh (by decide +kernel) (by decide +kernel) (by decide +kernel),
    text_of (d := py!"save_load_env_args") h hh (by decide +kernel) (by decide +kernel) (by decide +kernel),
    text_of (d := py!"supported_config_flags_file") h hh (by decide +kernel) (by decide +kernel) (by decide +kernel),
    text_of (d := py!"config_specs_file") h hh (by decide +kernel) (by decide +kernel) (by decide +kernel),
    text_of (d := py!"supported_systems_file") h hh (by decide +kernel) (by decide +kernel) (by decide +kernel),
    text_of (d := py!"supported_envs_file") h hh (by decide +kernel) (by decide +kernel) (by decide +kernel),
    text_of (d := py!"environment_specs_file") h hh (by decide +kernel) (by decide +kernel) (by decide +kernel)]
  rfl

theorem le_else {resolve : Str → Str} {neg : Str → Bool} {argv : List Str} :
    (∃ is, Reading neg leUsage argv is ∧ Usable is) ∨ Refused argv (leParse resolve neg argv) := by
  rcases reads_of_parse le_wf (by decide +kernel) (resolve := resolve) (neg := neg) (argv := argv) with ⟨ns, is, _, h, hu⟩ | h | ⟨h, hw⟩
  · exact .inl ⟨is, h, hu⟩
  · right; left
    unfold leParse
    rw [leTable_eq, h]
  · right; right
    refine ⟨?_, hw⟩
    unfold leParse
    rw [leTable_eq, h]
    rfl

theorem gc_else {resolve : Str → Str} {neg : Str → Bool} {argv : List Str} :
    (∃ is, Reading neg gcUsage argv is ∧ Usable is) ∨ Refused argv (gcParse resolve neg argv) := by
  rcases reads_of_parse gc_wf (by decide +kernel) (resolve := resolve) (neg := neg) (argv := argv) with ⟨ns, is, _, h, hu⟩ | h | ⟨h, hw⟩
  · exact .inl ⟨is, h, hu⟩
  · right; left
    unfold gcParse
    rw [gcTable_eq, h]
  · right; right
    refine ⟨?_, hw⟩
    unfold gcParse
    rw [gcTable_eq, h]
    rfl

theorem le_unusable {resolve : Str → Str} {neg : Str → Bool} {argv : List Str} {is : List Item} (h : Reading neg leUsage argv is)
    (hu : ¬ Usable is) : leParse resolve neg argv = .exc .systemExit := by
  unfold leParse
  rw [leTable_eq, parse_unusable le_wf (by decide +kernel) h hu]

theorem gc_unusable {resolve : Str → Str} {neg : Str → Bool} {argv : List Str} {is : List Item} (h : Reading neg gcUsage argv is)
    (hu : ¬ Usable is) : gcParse resolve neg argv = .exc .systemExit := by
  unfold gcParse
  rw [gcTable_eq, parse_unusable gc_wf (by decide +kernel) h hu]

/-! ### Order -/

theorem wordsOf_append : ∀ (is js : List Item), wordsOf (is ++ js) = wordsOf is ++ wordsOf js
  | [], _ => rfl
  | .word w :: is, js => congrArg (w :: ·) (wordsOf_append is js)
  | .act _ _ :: is, js => wordsOf_append is js
  | .extra :: is, js => wordsOf_append is js

theorem switched_append (d : Str) : ∀ (is js : List Item), switched d (is ++ js) = (switched d is || switched d js)
  | [], _ => rfl
  | .word w :: is, js => switched_append d is js
  | .act o _ :: is, js => by
    rw [List.cons_append, switched, switched, switched_append d is js, Bool.or_assoc]
  | .extra :: is, js => switched_append d is js

theorem lastValue_cons (d : Str) (o : Opt) (v : Str) (is : List Item) : lastValue d (.act o (some v) :: is) =
    (lastValue d is).or (if o.dest = d then some v else none) := by
  rw [lastValue]
  cases lastValue d is <;> rfl

theorem lastValue_append (d : Str) : ∀ (is js : List Item), lastValue d (is ++ js) = (lastValue d js).or (lastValue d is)
  | [], js => by cases h : lastValue d js <;> simp [lastValue, h]
  | .word w :: is, js => lastValue_append d is js
  | .extra :: is, js => lastValue_append d is js
  | .act _ none :: is, js => lastValue_append d is js
  | .act o (some v) :: is, js => by
    rw [List.cons_append, lastValue_cons, lastValue_cons, lastValue_append d is js, Option.or_assoc]

theorem lastValue_mem {d x : Str} : ∀ {is : List Item}, lastValue d is = some x → ∃ o, Item.act o (some x) ∈ is ∧ o.dest = d
  | [], h => by cases h
  | .word w :: is, h => by
    obtain ⟨o, h1, h2⟩ := lastValue_mem (is := is) h
    exact ⟨o, List.mem_cons_of_mem _ h1, h2⟩
  | .extra :: is, h => by
    obtain ⟨o, h1, h2⟩ := lastValue_mem (is := is) h
    exact ⟨o, List.mem_cons_of_mem _ h1, h2⟩
  | .act _ none :: is, h => by
    obtain ⟨o, h1, h2⟩ := lastValue_mem (is := is) h
    exact ⟨o, List.mem_cons_of_mem _ h1, h2⟩
  | .act o (some v) :: is, h => by
    rw [lastValue_cons] at h
    cases hl : lastValue d is with
    | some y =>
      rw [hl] at h
      injection h with h
      obtain ⟨o, h1, h2⟩ := lastValue_mem (is := is) hl
      exact ⟨o, List.mem_cons_of_mem _ (h ▸ h1), h2⟩
    | none =>
      rw [hl] at h
      dsimp only [Option.or] at h
      split at h
      · rename_i hd
        cases h
        exact ⟨o, List.mem_cons_self, hd⟩
      · cases h

theorem lastValue_apart {is js : List Item} (h : Apart is js) (d : Str) : lastValue d (is ++ js) = lastValue d (js ++ is) := by
  rw [lastValue_append, lastValue_append]
  cases h1 : lastValue d is with
  | none => cases lastValue d js <;> rfl
  | some x =>
    cases h2 : lastValue d js with
    | none => rfl
    | some y =>
      obtain ⟨o, hm, hd⟩ := lastValue_mem h1
      obtain ⟨o', hm', hd'⟩ := lastValue_mem h2
      exact absurd (hd.trans hd'.symm) (h.1 _ _ _ _ hm hm')

theorem wordsOf_apart {is js : List Item} (h : Apart is js) : wordsOf (is ++ js) = wordsOf (js ++ is) := by
  rw [wordsOf_append, wordsOf_append]
  rcases h.2 with e | e <;> simp [e]

theorem usable_comm {is js : List Item} : Usable (is ++ js) ↔ Usable (js ++ is) := by
  have : ∀ {is js : List Item}, Usable (is ++ js) → Usable (js ++ is) := by
    intro is js ⟨h1, h2⟩
    refine ⟨?_, fun o v hm => h2 o v ?_⟩
    · rw [wordsOf_append, List.length_append] at h1 ⊢
      omega
    · rcases List.mem_append.1 hm with hm | hm
      · exact List.mem_append_right _ hm
      · exact List.mem_append_left _ hm
  exact ⟨this, this⟩

theorem leMeaning_apart {is js : List Item} (resolve : Str → Str) (h : Apart is js) :
    leMeaning resolve (is ++ js) = leMeaning resolve (js ++ is) := by
  unfold leMeaning
  simp only [lastValue_apart h, wordsOf_apart h, switched_append, Bool.or_comm]

theorem gcMeaning_apart {is js : List Item} (resolve : Str → Str) (h : Apart is js) :
    gcMeaning resolve (is ++ js) = gcMeaning resolve (js ++ is) := by
  unfold gcMeaning
  simp only [lastValue_apart h, wordsOf_apart h, switched_append, Bool.or_comm]

end CPE.Cli
