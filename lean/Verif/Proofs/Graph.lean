import Verif.Proofs.Obj
/-
The unrolling against the graph of `use` links: what is covered, and when cycles are met.
-/
namespace CPE
open Spec
variable {δ ω : Type}

theorem Spec.Links.meaning {E : Env δ ω} {s t : Str} (h : Links E s t) (root : Str) :
    ∃ keys k, E.cfg.optionNames s = some keys ∧ k ∈ keys ∧ Spec.meaning E root s k = .link t := by
  obtain ⟨keys, k, h1, h2, h3⟩ := h
  exact ⟨keys, k, h1, h2, meaning_link_root h3⟩

theorem Spec.Reaches.trans {E : Env δ ω} {a b c : Str} (h : Reaches E a b) (h' : Reaches E b c) : Reaches E a c := by
  induction h with
  | refl _ => exact h'
  | step h1 _ ih => exact .step h1 (ih h')

theorem Spec.Reaches.tail {E : Env δ ω} {a b c : Str} (h : Reaches E a b) (h' : Links E b c) : Reaches E a c :=
  h.trans (.step h' (.refl _))

/-- A property of the part of the trace coming from options, section by section. -/
theorem unrolls_opts_link {E : Env δ ω} {root : Str} {path : List Str} {s t : Str} {keys : List Str} {evs : List (Ev δ ω)}
    (h : Unrolls E root (.opts path s keys) evs) {k : Str} (hk : k ∈ keys) (hm : meaning E root s k = .link t) :
    (t ∈ path ∧ .cycle s t ∈ evs) ∨ (t ∉ path ∧ ∃ sub, Unrolls E root (.sec path t) sub ∧ ∀ e ∈ sub, e ∈ evs) := by
  generalize ht : Task.opts path s keys = task at h
  induction h generalizing keys with
  | missing _ => cases ht
  | sec _ _ _ => cases ht
  | nil => cases ht; cases hk
  | plain h1 h2 ih =>
    cases ht
    rcases List.mem_cons.mp hk with rfl | hk
    · rw [hm] at h1; cases h1
    · rcases ih hk rfl with ⟨a, b⟩ | ⟨a, sub, b, c⟩
      · exact .inl ⟨a, List.mem_append_right _ b⟩
      · exact .inr ⟨a, sub, b, fun e he => List.mem_append_right _ (c e he)⟩
  | cyclic h1 hp h2 ih =>
    cases ht
    rcases List.mem_cons.mp hk with rfl | hk
    · rw [hm] at h1; cases h1
      exact .inl ⟨hp, List.mem_cons_self⟩
    · rcases ih hk rfl with ⟨a, b⟩ | ⟨a, sub, b, c⟩
      · exact .inl ⟨a, List.mem_cons_of_mem _ b⟩
      · exact .inr ⟨a, sub, b, fun e he => List.mem_cons_of_mem _ (c e he)⟩
  | link h1 hp hs h2 _ ih =>
    cases ht
    rcases List.mem_cons.mp hk with rfl | hk
    · rw [hm] at h1; cases h1
      exact .inr ⟨hp, _, hs, fun e he => List.mem_append_left _ he⟩
    · rcases ih hk rfl with ⟨a, b⟩ | ⟨a, sub, b, c⟩
      · exact .inl ⟨a, List.mem_append_right _ b⟩
      · exact .inr ⟨a, sub, b, fun e he => List.mem_append_right _ (c e he)⟩

theorem unrolls_opts_plain {E : Env δ ω} {root : Str} {path : List Str} {s : Str} {keys : List Str} {evs evk : List (Ev δ ω)}
    (h : Unrolls E root (.opts path s keys) evs) {k : Str} (hk : k ∈ keys) (hm : meaning E root s k = .events evk) :
    ∀ e ∈ evk, e ∈ evs := by
  generalize ht : Task.opts path s keys = task at h
  induction h generalizing keys with
  | missing _ => cases ht
  | sec _ _ _ => cases ht
  | nil => cases ht; cases hk
  | plain h1 h2 ih =>
    cases ht
    rcases List.mem_cons.mp hk with rfl | hk
    · rw [hm] at h1; cases h1
      exact fun e he => List.mem_append_left _ he
    · exact fun e he => List.mem_append_right _ (ih hk rfl e he)
  | cyclic h1 hp h2 ih =>
    cases ht
    rcases List.mem_cons.mp hk with rfl | hk
    · rw [hm] at h1; cases h1
    · exact fun e he => List.mem_cons_of_mem _ (ih hk rfl e he)
  | link h1 hp hs h2 _ ih =>
    cases ht
    rcases List.mem_cons.mp hk with rfl | hk
    · rw [hm] at h1; cases h1
    · exact fun e he => List.mem_append_right _ (ih hk rfl e he)

/-- Where the events of an unrolling come from. -/
inductive Origin (E : Env δ ω) (root s : Str) : Ev δ ω → Prop
  | visit {t} : Reaches E s t → Origin E root s (.visit t)
  | missing {t} : Reaches E s t → E.cfg.optionNames t = none → Origin E root s (.missing t)
  | option {t keys k evs e} : Reaches E s t → E.cfg.optionNames t = some keys → k ∈ keys →
      meaning E root t k = .events evs → e ∈ evs → Origin E root s e
  | cycle {t u} : Reaches E s t → Links E t u → Origin E root s (.cycle t u)

theorem Origin.weaken {E : Env δ ω} {root s t : Str} (h : Reaches E s t) {e : Ev δ ω} (ho : Origin E root t e) :
    Origin E root s e := by
  cases ho with
  | visit h1 => exact .visit (h.trans h1)
  | missing h1 h2 => exact .missing (h.trans h1) h2
  | option h1 h2 h3 h4 h5 => exact .option (h.trans h1) h2 h3 h4 h5
  | cycle h1 h2 => exact .cycle (h.trans h1) h2

theorem unrolls_origin {E : Env δ ω} {root : Str} {task : Task} {evs : List (Ev δ ω)} (h : Unrolls E root task evs) :
    match task with
    | .sec _ s => ∀ e ∈ evs, Origin E root s e
    | .opts _ s keys => ∀ all, E.cfg.optionNames s = some all → (∀ k ∈ keys, k ∈ all) → ∀ e ∈ evs, Origin E root s e := by
  induction h with
  | missing h =>
    intro e he
    rw [List.mem_singleton.mp he]
    exact .missing (.refl _) h
  | sec h _ ih =>
    intro e he
    rcases List.mem_cons.mp he with rfl | he
    · exact .visit (.refl _)
    · exact ih _ h (fun _ h => h) e he
  | nil => intro _ _ _ e he; cases he
  | plain h1 _ ih =>
    intro all ha hk e he
    rcases List.mem_append.mp he with he | he
    · exact .option (.refl _) ha (hk _ List.mem_cons_self) h1 he
    · exact ih all ha (fun k h => hk k (List.mem_cons_of_mem _ h)) e he
  | cyclic h1 hp _ ih =>
    intro all ha hk e he
    rcases List.mem_cons.mp he with rfl | he
    · exact .cycle (.refl _) (links_of_meaning ha (hk _ List.mem_cons_self) h1)
    · exact ih all ha (fun k h => hk k (List.mem_cons_of_mem _ h)) e he
  | link h1 hp hs _ ih1 ih2 =>
    intro all ha hk e he
    rcases List.mem_append.mp he with he | he
    · exact (ih1 e he).weaken (.step (links_of_meaning ha (hk _ List.mem_cons_self) h1) (.refl _))
    · exact ih2 all ha (fun k h => hk k (List.mem_cons_of_mem _ h)) e he

/-- Every section that can be reached avoiding `path` is unrolled somewhere below. -/
theorem unrolls_covers {E : Env δ ω} {root : Str} {path : List Str} {s t : Str} {evs : List (Ev δ ω)}
    (h : Unrolls E root (.sec path s) evs) (hr : ReachAvoid E path s t) :
    ∃ path' sub, Unrolls E root (.sec path' t) sub ∧ ∀ e ∈ sub, e ∈ evs := by
  generalize hn : todo E path = n
  induction n using Nat.strongRecOn generalizing path s evs with
  | ind n ih =>
    rcases hr.cut_self with rfl | ⟨u, hl, hu⟩
    · exact ⟨path, evs, h, fun _ h => h⟩
    · obtain ⟨keys, k, ho, hk, hm⟩ := Links.meaning hl root
      rcases unrolls_sec_cases h with ⟨hx, _⟩ | ⟨keys', rest, ho', rfl, hrest⟩
      · rw [ho] at hx; cases hx
      · rw [ho] at ho'; cases ho'
        rcases unrolls_opts_link hrest hk hm with ⟨hin, _⟩ | ⟨_, sub, hsub, hsubm⟩
        · exact absurd hin hu.head
        · have hlt : todo E (s :: path) < n := by
            rw [← hn]
            refine todo_cons_lt ?_ hr.head
            rw [← Cfg.optionNames_isSome, ho]; rfl
          obtain ⟨p', sub', h1, h2⟩ := ih _ hlt hsub hu rfl
          exact ⟨p', sub', h1, fun e he => List.mem_cons_of_mem _ (hsubm e (h2 e he))⟩

theorem unrolls_covers_option {E : Env δ ω} {root s t : Str} {evs : List (Ev δ ω)}
    (h : Unrolls E root (.sec [] s) evs) (hr : Reaches E s t) {keys : List Str} {k : Str} {evk : List (Ev δ ω)}
    (ho : E.cfg.optionNames t = some keys) (hk : k ∈ keys) (hm : meaning E root t k = .events evk) :
    ∀ e ∈ evk, e ∈ evs := by
  obtain ⟨p, sub, h1, h2⟩ := unrolls_covers h (reachAvoid_nil.mpr hr)
  rcases unrolls_sec_cases h1 with ⟨hx, _⟩ | ⟨keys', rest, ho', rfl, hrest⟩
  · rw [ho] at hx; cases hx
  · rw [ho] at ho'; cases ho'
    exact fun e he => h2 e (List.mem_cons_of_mem _ (unrolls_opts_plain hrest hk hm e he))

theorem unrolls_covers_visit {E : Env δ ω} {root s t : Str} {evs : List (Ev δ ω)}
    (h : Unrolls E root (.sec [] s) evs) (hr : Reaches E s t) (ho : (E.cfg.optionNames t).isSome) :
    .visit t ∈ evs := by
  obtain ⟨p, sub, h1, h2⟩ := unrolls_covers h (reachAvoid_nil.mpr hr)
  rcases unrolls_sec_cases h1 with ⟨hx, _⟩ | ⟨keys', rest, ho', rfl, hrest⟩
  · rw [hx] at ho; cases ho
  · exact h2 _ List.mem_cons_self

theorem unrolls_covers_missing {E : Env δ ω} {root s t : Str} {evs : List (Ev δ ω)}
    (h : Unrolls E root (.sec [] s) evs) (hr : Reaches E s t) (ho : E.cfg.optionNames t = none) :
    .missing t ∈ evs := by
  obtain ⟨p, sub, h1, h2⟩ := unrolls_covers h (reachAvoid_nil.mpr hr)
  rcases unrolls_sec_cases h1 with ⟨_, rfl⟩ | ⟨keys', rest, ho', rfl, hrest⟩
  · exact h2 _ List.mem_cons_self
  · rw [ho] at ho'; cases ho'

/-! ### meaning of a stored option does not depend on the root -/

theorem meaning_cases {E : Env δ ω} {root s k : Str} {evs : List (Ev δ ω)} (h : meaning E root s k = .events evs) :
    (∃ e, evs = [.fail e]) ∨ (∃ k' v, evs = [.store k' v]) ∨ (∃ hd c, evs = [.call hd c]) ∨
    (∃ op hd c, evs = [.ambiguous op, .call hd c]) := by
  unfold meaning at h
  split at h
  · cases h; exact .inl ⟨_, rfl⟩
  · dsimp only at h
    split at h
    · cases h; exact .inl ⟨_, rfl⟩
    · cases h; exact .inl ⟨_, rfl⟩
    · split at h
      · split at h
        · cases h; exact .inr (.inl ⟨_, _, rfl⟩)
        · cases h; exact .inr (.inr (.inl ⟨_, _, rfl⟩))
        · cases h; exact .inr (.inr (.inr ⟨_, _, _, rfl⟩))
        · cases h; exact .inr (.inr (.inl ⟨_, _, rfl⟩))
        · split at h
          · cases h; exact .inl ⟨_, rfl⟩
          · cases h
      · cases h; exact .inr (.inl ⟨_, _, rfl⟩)

theorem meaning_store_root {E : Env δ ω} {root root' s k k' : Str} {v : Option Str}
    (h : meaning E root s k = .events [.store k' v]) : meaning E root' s k = .events [.store k' v] := by
  unfold meaning at h ⊢
  cases hv : E.cfg.value s k with
  | error e => rw [hv] at h; cases h
  | ok v' =>
    rw [hv] at h
    dsimp only at h ⊢
    cases hsp : shlexSplit (strip k) with
    | error e => rw [hsp] at h; cases h
    | ok toks =>
      rw [hsp] at h
      cases toks with
      | nil => cases h
      | cons w ps =>
        dsimp only at h ⊢
        split at h
        · rename_i hw
          rw [if_pos hw]
          split at h
          · exact h
          · cases h
          · cases h
          · cases h
          · split at h
            · cases h
            · cases h
        · rename_i hw
          rw [if_neg hw]
          exact h

/-! ### cycles -/

/-- `t` lies on a cycle of `use` links. -/
def OnCycle (E : Env δ ω) (t : Str) : Prop := ∃ u, Links E t u ∧ Reaches E u t

theorem unrolls_cycle_sound {E : Env δ ω} {root : Str} {task : Task} {evs : List (Ev δ ω)} (h : Unrolls E root task evs) :
    match task with
    | .sec path s => (∀ p ∈ path, Reaches E p s) → ∀ a b, .cycle a b ∈ evs → Links E a b ∧ Reaches E b a
    | .opts path s keys => (∀ p ∈ path, Reaches E p s) → ∀ all, E.cfg.optionNames s = some all → (∀ k ∈ keys, k ∈ all) →
        ∀ a b, .cycle a b ∈ evs → Links E a b ∧ Reaches E b a := by
  induction h with
  | missing h => intro _ a b he; simp at he
  | sec h _ ih =>
    intro hp a b he
    rcases List.mem_cons.mp he with he | he
    · cases he
    · refine ih (fun p hm => ?_) _ h (fun _ h => h) a b he
      rcases List.mem_cons.mp hm with rfl | hm
      · exact .refl _
      · exact hp p hm
  | nil => intro _ _ _ _ a b he; cases he
  | plain h1 _ ih =>
    intro hp all ha hk a b he
    rcases List.mem_append.mp he with he | he
    · rcases meaning_cases h1 with ⟨_, rfl⟩ | ⟨_, _, rfl⟩ | ⟨_, _, rfl⟩ | ⟨_, _, _, rfl⟩ <;> simp at he
    · exact ih hp all ha (fun k h => hk k (List.mem_cons_of_mem _ h)) a b he
  | cyclic h1 hin _ ih =>
    intro hp all ha hk a b he
    rcases List.mem_cons.mp he with he | he
    · cases he
      exact ⟨links_of_meaning ha (hk _ List.mem_cons_self) h1, hp _ hin⟩
    · exact ih hp all ha (fun k h => hk k (List.mem_cons_of_mem _ h)) a b he
  | link h1 hin hs _ ih1 ih2 =>
    intro hp all ha hk a b he
    rcases List.mem_append.mp he with he | he
    · refine ih1 (fun p hm => (hp p hm).tail (links_of_meaning ha (hk _ List.mem_cons_self) h1)) a b he
    · exact ih2 hp all ha (fun k h => hk k (List.mem_cons_of_mem _ h)) a b he

theorem unrolls_acyclic {E : Env δ ω} {root : Str} {path : List Str} {s t : Str} {evs : List (Ev δ ω)}
    (h : Unrolls E root (.sec path s) evs) (hp : s ∉ path) (hc : ∀ a b, .cycle a b ∉ evs) (hr : Reaches E s t) :
    t ∉ path ∧ ¬ OnCycle E t := by
  generalize hn : todo E path = n
  induction n using Nat.strongRecOn generalizing path s t evs with
  | ind n ih =>
    have key : ∀ u t, Links E s u → Reaches E u t → t ∉ s :: path ∧ ¬ OnCycle E t := by
      intro u t hl hr
      obtain ⟨keys, k, ho, hk, hm⟩ := Links.meaning hl root
      rcases unrolls_sec_cases h with ⟨hx, _⟩ | ⟨keys', rest, ho', rfl, hrest⟩
      · rw [ho] at hx; cases hx
      · rw [ho] at ho'; cases ho'
        rcases unrolls_opts_link hrest hk hm with ⟨_, hcy⟩ | ⟨hup, sub, hsub, hsubm⟩
        · exact absurd (List.mem_cons_of_mem _ hcy) (hc _ _)
        · have hlt : todo E (s :: path) < n := by
            rw [← hn]
            refine todo_cons_lt ?_ hp
            rw [← Cfg.optionNames_isSome, ho]; rfl
          exact ih _ hlt hsub hup (fun a b hm => hc a b (List.mem_cons_of_mem _ (hsubm _ hm))) hr rfl
    cases hr with
    | refl =>
      refine ⟨hp, ?_⟩
      rintro ⟨u, hl, hr⟩
      exact (key u s hl hr).1 List.mem_cons_self
    | step hl hr =>
      have := key _ _ hl hr
      exact ⟨fun h => this.1 (List.mem_cons_of_mem _ h), this.2⟩

theorem unrolls_cycle_iff {E : Env δ ω} {root s : Str} {evs : List (Ev δ ω)} (h : Unrolls E root (.sec [] s) evs) :
    (∃ a b, .cycle a b ∈ evs) ↔ ∃ t, Reaches E s t ∧ OnCycle E t := by
  constructor
  · rintro ⟨a, b, hm⟩
    have h1 := unrolls_cycle_sound h (by simp) a b hm
    have h2 := unrolls_origin h _ hm
    refine ⟨a, ?_, b, h1⟩
    cases h2 with
    | option h1 h2 h3 h4 h5 =>
      rcases meaning_cases h4 with ⟨_, rfl⟩ | ⟨_, _, rfl⟩ | ⟨_, _, rfl⟩ | ⟨_, _, _, rfl⟩ <;> simp at h5
    | cycle h1 _ => exact h1
  · rintro ⟨t, hr, hc⟩
    by_cases hx : ∃ a b, .cycle a b ∈ evs
    · exact hx
    · exact absurd hc (unrolls_acyclic h (by simp) (fun a b hm => hx ⟨a, b, hm⟩) hr).2

end CPE
