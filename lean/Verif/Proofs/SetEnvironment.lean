import Verif.Proofs.EnvVars
import Verif.Proofs.Access
import Verif.Proofs.Closed
/-
Proofs about the action lists of a SetEnvironment object.
-/
namespace CPE
open Spec
variable {δ ω : Type}

/-- A handler call in an unrolling comes from an option of some section of the file. -/
theorem unrolls_call {E : Env δ ω} {root : Str} {task : Task} {evs : List (Ev δ ω)} (h : Unrolls E root task evs) :
    (∀ path s keys, task = .opts path s keys → ∃ ks, E.cfg.optionNames s = some ks ∧ ∀ k ∈ keys, k ∈ ks) →
    ∀ {hd : Handler δ ω} {c : HCall}, .call hd c ∈ evs →
      ∃ t keys k evs', E.cfg.optionNames t = some keys ∧ k ∈ keys ∧ meaning E root t k = .events evs' ∧
        .call hd c ∈ evs' := by
  induction h with
  | missing ho => intro _ hd c hm; simp at hm
  | @sec path s keys evs ho hu ih =>
    intro _ hd c hm
    rcases List.mem_cons.1 hm with hm | hm
    · cases hm
    · exact ih (fun p s' ks h => by cases h; exact ⟨keys, ho, fun _ h => h⟩) hm
  | nil => intro _ hd c hm; cases hm
  | @plain path s k ks evs rest hmn hu ih =>
    intro hk hd c hm
    obtain ⟨ks', h1, h2⟩ := hk _ _ _ rfl
    rcases List.mem_append.1 hm with hm | hm
    · exact ⟨s, ks', k, evs, h1, h2 k (.head _), hmn, hm⟩
    · exact ih (fun p s' l h => by cases h; exact ⟨ks', h1, fun x hx => h2 x (.tail _ hx)⟩) hm
  | @cyclic path s k ks t rest hmn ht hu ih =>
    intro hk hd c hm
    obtain ⟨ks', h1, h2⟩ := hk _ _ _ rfl
    rcases List.mem_cons.1 hm with hm | hm
    · cases hm
    · exact ih (fun p s' l h => by cases h; exact ⟨ks', h1, fun x hx => h2 x (.tail _ hx)⟩) hm
  | @link path s k ks t sub rest hmn ht hs hu ihs ih =>
    intro hk hd c hm
    obtain ⟨ks', h1, h2⟩ := hk _ _ _ rfl
    rcases List.mem_append.1 hm with hm | hm
    · exact ihs (fun p s' l h => by cases h) hm
    · exact ih (fun p s' l h => by cases h; exact ⟨ks', h1, fun x hx => h2 x (.tail _ hx)⟩) hm

/-- The handler of a call is the method of its operation. -/
theorem meaning_call {E : Env δ ω} {root s k : Str} {evs : List (Ev δ ω)} (h : meaning E root s k = .events evs)
    {hd : Handler δ ω} {c : HCall} (hm : .call hd c ∈ evs) :
    (publicHandler E c.op = some hd ∨ publicHandler E c.op = none ∧ E.priv c.op = some (.user hd)) ∧
    c.sectionName = s ∧ c.sectionRoot = root := by
  unfold meaning at h
  split at h
  · cases h; simp at hm
  · dsimp only at h
    split at h
    · cases h; simp at hm
    · cases h; simp at hm
    · split at h
      · split at h
        · cases h; simp at hm
        · rename_i hp hq
          cases h
          simp only [List.mem_cons, List.not_mem_nil, or_false] at hm
          cases hm
          exact ⟨.inl hp, rfl, rfl⟩
        · rename_i hp hq
          cases h
          simp only [List.mem_cons, List.not_mem_nil, or_false] at hm
          rcases hm with hm | hm
          · cases hm
          · cases hm
            exact ⟨.inl hp, rfl, rfl⟩
        · rename_i hp hq
          cases h
          simp only [List.mem_cons, List.not_mem_nil, or_false] at hm
          cases hm
          exact ⟨.inr ⟨hp, hq⟩, rfl, rfl⟩
        · split at h
          · cases h; simp at hm
          · cases h
      · cases h; simp at hm

end CPE
namespace CPE.SetEnv
open CPE.Spec CPE.SetEnv.Spec

/-- A call of one of the operations of the class. -/
def Proper (x : Handler Shared Actions × HCall) : Prop := privMethod x.2.op = some (.user x.1)

theorem calls_proper {cfg : Cfg} {st : Settings} (hn : NoHookOptions (env cfg st)) {root s : Str} {path : List Str}
    {evs : List (Ev Shared Actions)} (h : Unrolls (env cfg st) root (.sec path s) evs) : ∀ x ∈ calls evs, Proper x := by
  rintro ⟨hd, c⟩ hx
  obtain ⟨t, keys, k, evs', h1, h2, h3, h4⟩ := unrolls_call h (fun _ _ _ h => by cases h) (mem_calls.1 hx)
  obtain ⟨hp, _⟩ := meaning_call h3 h4
  have := hn t keys k evs' h1 h2 root h3 hd c h4
  have hpub : publicHandler (env cfg st) c.op = none := by
    unfold publicHandler
    rw [if_neg this.1, if_neg this.2]
    rfl
  rcases hp with hp | hp
  · rw [hpub] at hp; cases hp
  · exact hp.2

/-- The calls whose operation is one of the class, by kind. -/
theorem privMethod_cases {op : Str} {h : Handler Shared Actions} (hp : privMethod op = some (.user h)) :
    (op ∈ envvarActions ∧ op ≠ py!"envvar_assert_not_empty" ∧ h = handlerEnvvar) ∨
    (op = py!"envvar_assert_not_empty" ∧ h = handlerAssert) ∨
    (op = py!"envvar_remove" ∧ h = handlerEnvvarRemove) ∨
    (op ∈ moduleActions ∧ h = handlerModule) ∨
    (op = py!"module_remove" ∧ h = handlerModuleRemove) := by
  unfold privMethod at hp
  by_cases h1 : op = py!"use"
  · subst h1; cases hp
  rw [if_neg h1] at hp
  by_cases h2 : op = py!"envvar_append"
  · subst h2; cases hp; exact .inl ⟨by decide, by decide, rfl⟩
  rw [if_neg h2] at hp
  by_cases h3 : op = py!"envvar_assert_not_empty"
  · subst h3; cases hp; exact .inr (.inl ⟨rfl, rfl⟩)
  rw [if_neg h3] at hp
  by_cases h4 : op = py!"envvar_find_in_path"
  · subst h4; cases hp; exact .inl ⟨by decide, by decide, rfl⟩
  rw [if_neg h4] at hp
  by_cases h5 : op = py!"envvar_prepend"
  · subst h5; cases hp; exact .inl ⟨by decide, by decide, rfl⟩
  rw [if_neg h5] at hp
  by_cases h6 : op = py!"envvar_remove"
  · subst h6; cases hp; exact .inr (.inr (.inl ⟨rfl, rfl⟩))
  rw [if_neg h6] at hp
  by_cases h7 : op = py!"envvar_remove_path_entry"
  · subst h7; cases hp; exact .inl ⟨by decide, by decide, rfl⟩
  rw [if_neg h7] at hp
  by_cases h8 : op = py!"envvar_remove_substr"
  · subst h8; cases hp; exact .inl ⟨by decide, by decide, rfl⟩
  rw [if_neg h8] at hp
  by_cases h9 : op = py!"envvar_set"
  · subst h9; cases hp; exact .inl ⟨by decide, by decide, rfl⟩
  rw [if_neg h9] at hp
  by_cases h10 : op = py!"envvar_set_if_empty"
  · subst h10; cases hp; exact .inl ⟨by decide, by decide, rfl⟩
  rw [if_neg h10] at hp
  by_cases h11 : op = py!"envvar_unset"
  · subst h11; cases hp; exact .inl ⟨by decide, by decide, rfl⟩
  rw [if_neg h11] at hp
  by_cases h12 : op = py!"module_load"
  · subst h12; cases hp; exact .inr (.inr (.inr (.inl ⟨by decide, rfl⟩)))
  rw [if_neg h12] at hp
  by_cases h13 : op = py!"module_purge"
  · subst h13; cases hp; exact .inr (.inr (.inr (.inl ⟨by decide, rfl⟩)))
  rw [if_neg h13] at hp
  by_cases h14 : op = py!"module_remove"
  · subst h14; cases hp; exact .inr (.inr (.inr (.inr ⟨rfl, rfl⟩)))
  rw [if_neg h14] at hp
  by_cases h15 : op = py!"module_swap"
  · subst h15; cases hp; exact .inr (.inr (.inr (.inl ⟨by decide, rfl⟩)))
  rw [if_neg h15] at hp
  by_cases h16 : op = py!"module_unload"
  · subst h16; cases hp; exact .inr (.inr (.inr (.inl ⟨by decide, rfl⟩)))
  rw [if_neg h16] at hp
  by_cases h17 : op = py!"module_use"
  · subst h17; cases hp; exact .inr (.inr (.inr (.inl ⟨by decide, rfl⟩)))
  rw [if_neg h17] at hp
  cases hp

open Classical in
/-- The actions of `l` that none of the options `cs` takes out. -/
noncomputable def keptBy (cs : List HCall) (l : List Action) : List Action :=
  l.filter fun a => decide (∀ c ∈ cs, ¬ Removes c a)

theorem keptBy_nil (l : List Action) : keptBy [] l = l := by
  unfold keptBy
  exact List.filter_eq_self.2 fun a _ => by simp

open Classical in
theorem keptBy_cons (c : HCall) (cs : List HCall) (l : List Action) : keptBy (c :: cs) l = keptBy cs (keptBy [c] l) := by
  unfold keptBy
  rw [List.filter_filter]
  refine List.filter_congr fun a _ => ?_
  rw [Bool.eq_iff_iff, Bool.and_eq_true, decide_eq_true_iff, decide_eq_true_iff, decide_eq_true_iff,
    List.forall_mem_cons, List.forall_mem_singleton, and_comm]

theorem keptBy_append (cs : List HCall) (l l' : List Action) : keptBy cs (l ++ l') = keptBy cs l ++ keptBy cs l' := by
  unfold keptBy
  exact List.filter_append ..

open Classical in
theorem keptBy_same {c : HCall} (h1 : c.op ≠ py!"envvar_remove") (h2 : c.op ≠ py!"module_remove") (l : List Action) :
    keptBy [c] l = l := by
  unfold keptBy
  refine List.filter_eq_self.2 fun a _ => decide_eq_true fun c' hc hr => ?_
  cases List.mem_singleton.1 hc
  cases hr with
  | envvar h _ => exact h1 h
  | module h _ => exact h2 h
  | mention h _ => exact h2 h

open Classical in
/-- What a call of the class does to the list. -/
theorem proper_run {x : Handler Shared Actions × HCall} (hp : Proper x) (l : List Action) (a : Actions) :
    (x.1.run x.2 (some l) a).2 = (some (keptBy [x.2] l ++ (yields x.2).toList), a) := by
  obtain ⟨h, c⟩ := x
  rcases privMethod_cases hp with ⟨h1, h2, rfl⟩ | ⟨h1, rfl⟩ | ⟨h1, rfl⟩ | ⟨h1, rfl⟩ | ⟨h1, rfl⟩
  · dsimp only at h1 h2 ⊢
    rw [keptBy_same (fun h => by rw [h] at h1; revert h1; decide) (fun h => by rw [h] at h1; revert h1; decide)]
    unfold yields
    rw [if_pos h1]
    show (helperEnvvar c c.value (some l) a).2 = _
    unfold helperEnvvar
    cases hps : c.params with
    | nil => simp
    | cons n ps => dsimp only; rw [if_neg h2]; rfl
  · dsimp only at h1 ⊢
    rw [keptBy_same (fun h => by rw [h] at h1; revert h1; decide) (fun h => by rw [h] at h1; revert h1; decide)]
    unfold yields
    rw [if_pos (by rw [h1]; decide)]
    show (helperEnvvar c (some (c.value.getD [])) (some l) a).2 = _
    unfold helperEnvvar
    cases hps : c.params with
    | nil => simp
    | cons n ps => dsimp only; rw [if_pos h1]; rfl
  · dsimp only at h1 ⊢
    unfold yields
    rw [if_neg (by rw [h1]; decide), if_neg (by rw [h1]; decide)]
    unfold handlerEnvvarRemove keptBy
    dsimp only
    cases hps : c.params with
    | nil =>
      dsimp only
      rw [List.filter_eq_self.2]
      · simp
      · intro a _
        refine decide_eq_true fun c' hc hr => ?_
        cases List.mem_singleton.1 hc
        cases hr with
        | envvar _ h => rw [hps] at h; cases h
        | module h _ => rw [h1] at h; revert h; decide
        | mention h _ => rw [h1] at h; revert h; decide
    | cons n ps =>
      simp only [Option.toList_none, List.append_nil, Prod.mk.injEq, Option.some.injEq, and_true]
      refine List.filter_congr fun a _ => ?_
      rw [eq_comm, Bool.eq_iff_iff, decide_eq_true_iff, List.forall_mem_singleton]
      cases a with
      | envvar op m v =>
        simp only [decide_eq_true_eq]
        refine not_congr ⟨fun hr => ?_, fun h => ?_⟩
        · cases hr with
          | envvar _ h => rw [hps] at h; cases h; rfl
        · exact .envvar h1 (by rw [hps, h]; rfl)
      | module op m v =>
        refine iff_of_true (fun hr => ?_) rfl
        cases hr with
        | module h _ => rw [h1] at h; revert h; decide
        | mention h _ => rw [h1] at h; revert h; decide
  · dsimp only at h1 ⊢
    rw [keptBy_same (fun h => by rw [h] at h1; revert h1; decide) (fun h => by rw [h] at h1; revert h1; decide)]
    unfold yields
    rw [if_neg (fun h => by
      simp only [moduleActions, List.mem_cons, List.not_mem_nil, or_false] at h1
      rcases h1 with h1 | h1 | h1 | h1 | h1 <;> (rw [h1] at h; revert h; decide)), if_pos h1]
    rfl
  · dsimp only at h1 ⊢
    unfold yields
    rw [if_neg (by rw [h1]; decide), if_neg (by rw [h1]; decide)]
    unfold handlerModuleRemove keptBy
    dsimp only
    cases hps : c.params with
    | nil =>
      dsimp only
      rw [List.filter_eq_self.2]
      · simp
      · intro a _
        refine decide_eq_true fun c' hc hr => ?_
        cases List.mem_singleton.1 hc
        cases hr with
        | envvar h _ => rw [h1] at h; revert h; decide
        | module _ h => rw [hps] at h; cases h
        | mention _ h => rw [hps] at h; cases h
    | cons n ps =>
      simp only [Option.toList_none, List.append_nil, Prod.mk.injEq, Option.some.injEq, and_true]
      refine List.filter_congr fun a _ => ?_
      rw [eq_comm, Bool.eq_iff_iff, decide_eq_true_iff, List.forall_mem_singleton]
      cases a with
      | envvar op m v =>
        refine iff_of_true (fun hr => ?_) rfl
        cases hr with
        | envvar h _ => rw [h1] at h; revert h; decide
      | module op m v =>
        simp only [Bool.and_eq_true, decide_eq_true_eq]
        constructor
        · intro hr
          refine ⟨fun h => hr (h ▸ .module h1 (by rw [hps]; rfl)), ?_⟩
          cases v with
          | none => rfl
          | some v =>
            simp only [Bool.not_eq_true', Bool.eq_false_iff, ne_eq]
            intro h
            obtain ⟨x, y, rfl⟩ := (isSubstr_iff _ _).1 h
            exact hr (.mention h1 (by rw [hps]; rfl))
        · rintro ⟨h2, h3⟩ hr
          cases hr with
          | module _ h => rw [hps] at h; cases h; exact h2 rfl
          | mention _ h =>
            rw [hps] at h; cases h
            simp only [Bool.not_eq_true', Bool.eq_false_iff, ne_eq] at h3
            exact h3 ((isSubstr_iff _ _).2 ⟨_, _, rfl⟩)

/-- The calls of a parse build the action list. -/
theorem foldCalls_proper (xs : List (Handler Shared Actions × HCall)) (hp : ∀ x ∈ xs, Proper x) :
    ∃ L, ActionList (xs.map Prod.snd) L ∧
      ∀ l a, foldCalls xs (some l, a) = (some (keptBy (xs.map Prod.snd) l ++ L), a) := by
  induction xs with
  | nil => exact ⟨[], .nil, fun l a => by rw [List.map_nil, keptBy_nil, List.append_nil]; rfl⟩
  | cons x xs ih =>
    obtain ⟨L, hL, hf⟩ := ih fun y hy => hp y (.tail _ hy)
    have step : ∀ l a, foldCalls (x :: xs) (some l, a) =
        (some (keptBy (x.2 :: xs.map Prod.snd) l ++ (keptBy (xs.map Prod.snd) (yields x.2).toList ++ L)), a) := by
      intro l a
      show foldCalls xs (x.1.run x.2 (some l) a).2 = _
      rw [proper_run (hp x (.head _)), hf, keptBy_append, ← keptBy_cons, List.append_assoc]
    cases hy : yields x.2 with
    | none => exact ⟨L, .skip hy hL, fun l a => by rw [step, hy]; rfl⟩
    | some act =>
      by_cases hr : ∀ c' ∈ xs.map Prod.snd, ¬ Removes c' act
      · refine ⟨act :: L, .kept hy hr hL, fun l a => ?_⟩
        rw [step, hy]
        have : keptBy (xs.map Prod.snd) [act] = [act] := by
          unfold keptBy; rw [List.filter_cons_of_pos (by simpa using hr)]; rfl
        show (some (_ ++ (keptBy (xs.map Prod.snd) [act] ++ L)), a) = _
        rw [this]; rfl
      · have hr' := hr
        simp only [Classical.not_forall, Classical.not_not] at hr'
        obtain ⟨c', hc', hrem⟩ := hr'
        refine ⟨L, .removed hy hc' hrem hL, fun l a => ?_⟩
        rw [step, hy]
        have : keptBy (xs.map Prod.snd) [act] = [] := by
          unfold keptBy; rw [List.filter_cons_of_neg (by simpa using hr)]; rfl
        show (some (_ ++ (keptBy (xs.map Prod.snd) [act] ++ L)), a) = _
        rw [this]; rfl

/-- Also when the list does not exist yet. -/
theorem foldCalls_proper_any (xs : List (Handler Shared Actions × HCall)) (hp : ∀ x ∈ xs, Proper x) {L : List Action}
    (hL : ActionList (xs.map Prod.snd) L)
    (hf : ∀ l a, foldCalls xs (some l, a) = (some (keptBy (xs.map Prod.snd) l ++ L), a)) (a : Actions) :
    ((foldCalls xs (none, a)).1 = some L ∨ L = [] ∧ (foldCalls xs (none, a)).1 = none) ∧
      (foldCalls xs (none, a)).2 = a := by
  induction xs generalizing L with
  | nil => cases hL; exact ⟨.inr ⟨rfl, rfl⟩, rfl⟩
  | cons x xs ih =>
    obtain ⟨L', hL', hf'⟩ := foldCalls_proper xs fun y hy => hp y (.tail _ hy)
    have step : foldCalls (x :: xs) (none, a) = foldCalls xs (x.1.run x.2 none a).2 := rfl
    have hstep : (x.1.run x.2 none a).2 = (x.1.run x.2 (some []) a).2 ∨
        (x.1.run x.2 none a).2 = (none, a) ∧ yields x.2 = none := by
      obtain ⟨h, c⟩ := x
      rcases privMethod_cases (hp (h, c) (.head _)) with ⟨h1, h2, rfl⟩ | ⟨h1, rfl⟩ | ⟨h1, rfl⟩ | ⟨h1, rfl⟩ | ⟨h1, rfl⟩
      · dsimp only at h1 ⊢
        cases hps : c.params with
        | nil => exact .inr ⟨by simp [handlerEnvvar, helperEnvvar, hps], by unfold yields; rw [if_pos h1, hps]⟩
        | cons n ps => exact .inl (by simp [handlerEnvvar, helperEnvvar, hps, initShared])
      · dsimp only at h1 ⊢
        cases hps : c.params with
        | nil => exact .inr ⟨by simp [handlerAssert, helperEnvvar, hps], by
            unfold yields; rw [if_pos (by rw [h1]; decide), hps]⟩
        | cons n ps => exact .inl (by simp [handlerAssert, helperEnvvar, hps, initShared])
      · dsimp only at h1 ⊢
        exact .inr ⟨rfl, by unfold yields; rw [if_neg (by rw [h1]; decide), if_neg (by rw [h1]; decide)]⟩
      · exact .inl rfl
      · dsimp only at h1 ⊢
        exact .inr ⟨rfl, by unfold yields; rw [if_neg (by rw [h1]; decide), if_neg (by rw [h1]; decide)]⟩
    rcases hstep with h | ⟨h, hy⟩
    · have : foldCalls (x :: xs) (none, a) = (some L, a) := by
        rw [step, h]
        have := hf [] a
        rw [show foldCalls (x :: xs) (some [], a) = foldCalls xs (x.1.run x.2 (some []) a).2 from rfl] at this
        rw [this]
        rfl
      rw [this]
      exact ⟨.inl rfl, rfl⟩
    · rw [step, h]
      have hLL : L = L' := by
        cases hL with
        | skip _ h2 =>
          have := (hf' [] a).symm.trans ((hf' [] a))
          have e1 := hf [] a
          rw [show foldCalls (x :: xs) (some [], a) = foldCalls xs (x.1.run x.2 (some []) a).2 from rfl,
            proper_run (hp x (.head _)), hy, hf'] at e1
          have := congrArg Prod.fst e1
          simpa [keptBy] using this.symm
        | removed hy' => rw [hy] at hy'; cases hy'
        | kept hy' => rw [hy] at hy'; cases hy'
      subst hLL
      exact ih (fun y hy => hp y (.tail _ hy)) hL' hf'

theorem actionList_det {cs : List HCall} {l l' : List Action} (h : ActionList cs l) (h' : ActionList cs l') : l = l' := by
  induction h generalizing l' with
  | nil => cases h'; rfl
  | skip hy _ ih =>
    cases h' with
    | skip _ h2 => exact ih h2
    | removed hy' => rw [hy] at hy'; cases hy'
    | kept hy' => rw [hy] at hy'; cases hy'
  | removed hy hc hr _ ih =>
    cases h' with
    | skip hy' => rw [hy] at hy'; cases hy'
    | removed _ _ _ h2 => exact ih h2
    | kept hy' hk => rw [hy] at hy'; cases hy'; exact absurd hr (hk _ hc)
  | kept hy hk _ ih =>
    cases h' with
    | skip hy' => rw [hy] at hy'; cases hy'
    | removed hy' hc hr => rw [hy] at hy'; cases hy'; exact absurd hr (hk _ hc)
    | kept hy' _ h2 => rw [hy] at hy'; cases hy'; rw [ih h2]

/-! ### What a parse does to the stored lists, whatever its outcome -/

/-- `m` leaves the stored lists alone. -/
abbrev KeepsSelf {α : Type} (m : M (World Shared Actions) α) : Prop := Pres (fun w w' => w'.self = w.self) m

theorem KeepsSelf.bind {α β : Type} {m : M (World Shared Actions) α} {f : α → M (World Shared Actions) β}
    (h : KeepsSelf m) (hf : ∀ a, KeepsSelf (f a)) : KeepsSelf (m >>= f) :=
  Pres.bind (fun h1 h2 => h2.trans h1) h hf

theorem keepsSelf_log (E : Env Shared Actions) (l : LogEntry) : KeepsSelf (logAdd E l) := by
  intro w
  unfold logAdd M.modify
  dsimp only
  split <;> rfl

theorem keepsSelf_event (E : Env Shared Actions) (ev : Event) (e : PyExc) : KeepsSelf (ecEvent E ev e) := fun _ => rfl

theorem keepsSelf_forEach {ι : Type} (xs : List ι) {f : ι → M (World Shared Actions) Unit}
    (hf : ∀ a ∈ xs, KeepsSelf (f a)) : KeepsSelf (M.forEach xs f) := by
  induction xs with
  | nil => exact fun _ => rfl
  | cons x xs ih =>
    rw [M.forEach_cons]
    exact (hf x (.head _)).bind fun _ => ih fun a ha => hf a (.tail _ ha)

theorem proper_self {x : Handler Shared Actions × HCall} (hp : Proper x) (d : Shared) (a : Actions) :
    (x.1.run x.2 d a).2.2 = a := by
  obtain ⟨h, c⟩ := x
  have env : ∀ v, (helperEnvvar c v d a).2.2 = a := by
    intro v; unfold helperEnvvar; cases c.params <;> rfl
  rcases privMethod_cases hp with ⟨_, _, rfl⟩ | ⟨_, rfl⟩ | ⟨_, rfl⟩ | ⟨_, rfl⟩ | ⟨_, rfl⟩
  · exact env _
  · exact env _
  · cases d <;> cases hps : c.params <;> simp [handlerEnvvarRemove, hps]
  · rfl
  · cases d <;> cases hps : c.params <;> simp [handlerModuleRemove, hps]

theorem replay_self (E : Env Shared Actions) (root : Str) (evs : List (Ev Shared Actions))
    (hp : ∀ x ∈ calls evs, Proper x) (c : Core Shared Actions) : (replay E root evs c).2.self = c.self := by
  induction evs generalizing c with
  | nil => rfl
  | cons ev evs ih =>
    have h1 : (evStep E root ev c).2.self = c.self := by
      cases ev with
      | call h hc =>
        have := proper_self (hp (h, hc) (.head _)) c.shared c.self
        unfold evStep
        dsimp only at this ⊢
        split
        · exact this
        · split
          · rw [(onReturn_core E _ _).2.2.2]; exact this
          · exact this
      | visit s => unfold evStep; dsimp only; split <;> rfl
      | missing s => rfl
      | store k v => rfl
      | cycle a b => exact (notify_core E _ _ _ c).2.2.2
      | ambiguous op => exact (notify_core E _ _ _ c).2.2.2
      | fail e => rfl
    have h2 : ∀ x ∈ calls evs, Proper x := by
      intro x hx
      refine hp x ?_
      cases ev <;> first | exact hx | exact .tail _ hx
    unfold replay
    cases hs : evStep E root ev c with
    | mk o c' =>
      rw [hs] at h1
      cases o with
      | none => exact (ih h2 c').trans h1
      | some e => exact h1

theorem meaning_proper {cfg : Cfg} {st : Settings} (hn : NoHookOptions (env cfg st)) {root t k : Str} {keys : List Str}
    (hk : (env cfg st).cfg.optionNames t = some keys) (hmem : k ∈ keys) {evs : List (Ev Shared Actions)}
    (h : meaning (env cfg st) root t k = .events evs) : ∀ x ∈ calls evs, Proper x := by
  rintro ⟨hd, c⟩ hx
  have h4 := mem_calls.1 hx
  obtain ⟨hp, _⟩ := meaning_call h h4
  have := hn t keys k evs hk hmem root h hd c h4
  have hpub : publicHandler (env cfg st) c.op = none := by
    unfold publicHandler
    rw [if_neg this.1, if_neg this.2]
    rfl
  rcases hp with hp | hp
  · rw [hpub] at hp; cases hp
  · exact hp.2

theorem keepsSelf_option {cfg : Cfg} {st : Settings} (hn : NoHookOptions (env cfg st)) {root t k : Str} {keys : List Str}
    (hk : (env cfg st).cfg.optionNames t = some keys) (hmem : k ∈ keys)
    {rec : Str → M (World Shared Actions) Unit} (hrec : ∀ t, KeepsSelf (rec t)) :
    KeepsSelf (processOption (env cfg st) rec root t k) := by
  cases hm : meaning (env cfg st) root t k with
  | events evs =>
    intro w
    have := (Sim.optionEvents (path := w.processed) rec hm w fun _ => Iff.rfl).2.1
    show (processOption (env cfg st) rec root t k w).2.toCore.self = w.self
    rw [this]
    exact replay_self _ _ _ (meaning_proper hn hk hmem hm) _
  | link u =>
    obtain ⟨c, ps, l1, l2, h1, _, h3⟩ := processOption_link_eq rec hm
    rw [h3]
    refine (keepsSelf_log _ _).bind fun _ => (keepsSelf_log _ _).bind fun _ => ?_
    refine (keepsSelf_log _ _).bind fun _ => KeepsSelf.bind ?_ fun r => (keepsSelf_log _ _).bind fun _ => ?_
    · unfold useBody
      rw [h1]
      refine KeepsSelf.bind (fun _ => rfl) fun w => ?_
      split
      · exact (keepsSelf_log _ _).bind fun _ => (keepsSelf_log _ _).bind fun _ => (keepsSelf_event _ _ _).bind
          fun _ _ => rfl
      · exact (hrec u).bind fun _ _ => rfl
    · unfold checkRval
      cases r with
      | notInt => exact fun _ => rfl
      | int i =>
        dsimp only
        split
        · exact fun _ => rfl
        · split <;> exact keepsSelf_event _ _ _

theorem keepsSelf_main {cfg : Cfg} {st : Settings} (hn : NoHookOptions (env cfg st)) {root t : Str}
    {rec : Str → M (World Shared Actions) Unit} (hrec : ∀ t, KeepsSelf (rec t)) :
    KeepsSelf (parseMain (env cfg st) rec root t false) := by
  unfold parseMain
  refine (keepsSelf_log _ _).bind fun _ => ?_
  cases ho : (env cfg st).cfg.optionNames t with
  | none => exact fun _ => rfl
  | some keys =>
    dsimp only
    refine KeepsSelf.bind (fun w => by rw [addSection_apply]) fun _ => KeepsSelf.bind (fun _ => rfl) fun _ =>
      (keepsSelf_forEach keys fun k hk => keepsSelf_option hn ho hk hrec).bind fun _ => ?_
    simp only [Bool.false_and, Bool.false_eq_true, if_false]
    refine KeepsSelf.bind (fun _ => rfl) fun w => ?_
    split
    · exact KeepsSelf.bind (fun _ => rfl) fun _ => keepsSelf_log _ _
    · exact fun _ => rfl

theorem keepsSelf_hookInit (cfg : Cfg) (st : Settings) (c : HCall) :
    KeepsSelf (callHandler (env cfg st) (env cfg st).hookInit c) := by
  intro w
  have := (Sim.call (E := env cfg st) (root := []) (path := w.processed) hookInit c w fun _ => Iff.rfl).2.1
  show (callHandler (env cfg st) hookInit c w).2.toCore.self = w.self
  rw [this]
  rfl

theorem keepsSelf_parseR {cfg : Cfg} {st : Settings} (hn : NoHookOptions (env cfg st)) (n : Nat) (root s : Str)
    (init : Bool) : KeepsSelf (parseR (env cfg st) n root s init false) := by
  induction n generalizing s init with
  | zero => exact fun _ => rfl
  | succ n ih =>
    by_cases h : init = true ∧ s = root
    · obtain ⟨rfl, rfl⟩ := h
      rw [parseR_succ_init]
      refine (keepsSelf_hookInit cfg st _).bind fun _ => ?_
      split
      · exact (ih _ _).bind fun _ => keepsSelf_main hn fun t => ih t true
      · exact keepsSelf_main hn fun t => ih t true
    · rw [parseR_succ_other (by
        by_cases h1 : init = true
        · exact .inr fun h2 => h ⟨h1, h2⟩
        · exact .inl (by simpa using h1))]
      exact keepsSelf_main hn fun t => ih t true

/-- A section that is being parsed stays so while its options are. -/
theorem parseR_keeps_proc {δ ω : Type} {E : Env δ ω} {root : Str} (n : Nat) {t : Str} {w w' : World δ ω} (hr : root ∈ w.processed)
    (ht : t ∉ w.processed) (h : parseR E n root t true false w = (.ok (), w')) : root ∈ w'.processed := by
  induction n generalizing t w w' with
  | zero => cases h
  | succ n ih =>
    have hne : t ≠ root := fun h => ht (h ▸ hr)
    rw [parseR_succ_other (.inr hne)] at h
    obtain ⟨keys, w1, w2, hks, h1, h2, _, h3⟩ := parseMain_ok h
    clear hks
    refine (h3 root).2 ⟨?_, fun h => hne h.symm⟩
    have hr1 : root ∈ w1.processed := (h1 root).2 (.inr hr)
    clear h1 h3
    induction keys generalizing w1 with
    | nil => cases h2; exact hr1
    | cons k ks ihk =>
      rw [M.forEach_cons] at h2
      obtain ⟨⟨⟩, w3, h4, h5⟩ := bind_ok_inv h2
      refine ihk w3 h5 ?_
      cases hm : meaning E root t k with
      | events evs => exact (processOption_events_ok hm h4 root).2 hr1
      | link u =>
        rcases processOption_link_ok hm h4 with ⟨_, h6⟩ | ⟨h6, w4, w5, h7, h8, h9⟩
        · rw [h6]; exact hr1
        · rw [h9]
          exact ih (h7 ▸ hr1) (h7 ▸ h6) h8

/-- A failing run of `m` from a state with `Q` leaves the stored lists alone. -/
def FailKeeps {α : Type} (Q : World Shared Actions → Prop) (m : M (World Shared Actions) α) : Prop :=
  ∀ w, Q w → (∀ u, (m w).1 ≠ .ok u) → (m w).2.self = w.self

theorem FailKeeps.bind {α β : Type} {Q Q' : World Shared Actions → Prop} {m : M (World Shared Actions) α}
    {f : α → M (World Shared Actions) β} (h : KeepsSelf m) (hq : ∀ a w w', Q w → m w = (.ok a, w') → Q' w')
    (hf : ∀ a, FailKeeps Q' (f a)) : FailKeeps Q (m >>= f) := by
  intro w hw hfail
  have h1 := h w
  rw [M.bind_def] at hfail ⊢
  cases hm : m w with
  | mk o w' =>
    rw [hm] at h1 hfail
    cases o with
    | ok a => exact (hf a w' (hq a w w' hw hm) hfail).trans h1
    | exc e => exact h1
    | diverge => exact h1

theorem forEach_keeps_proc {δ ω : Type} {E : Env δ ω} {root s : Str} (n : Nat) (keys : List Str) {w w' : World δ ω}
    (hr : root ∈ w.processed)
    (h : M.forEach keys (processOption E (fun t => parseR E n root t true false) root s) w = (.ok (), w')) :
    root ∈ w'.processed := by
  induction keys generalizing w with
  | nil => cases h; exact hr
  | cons k ks ih =>
    rw [M.forEach_cons] at h
    obtain ⟨⟨⟩, w3, h4, h5⟩ := bind_ok_inv h
    refine ih ?_ h5
    cases hm : meaning E root s k with
    | events evs => exact (processOption_events_ok hm h4 root).2 hr
    | link u =>
      rcases processOption_link_ok hm h4 with ⟨_, h6⟩ | ⟨h6, w4, w5, h7, h8, h9⟩
      · rw [h6]; exact hr
      · rw [h9]
        exact parseR_keeps_proc n (h7 ▸ hr) (h7 ▸ h6) h8

theorem failKeeps_main {cfg : Cfg} {st : Settings} (hn : NoHookOptions (env cfg st)) (n : Nat) (root : Str) :
    FailKeeps (fun _ => True)
      (parseMain (env cfg st) (fun t => parseR (env cfg st) n root t true false) root root true) := by
  unfold parseMain
  refine FailKeeps.bind (keepsSelf_log _ _) (Q' := fun _ => True) (fun _ _ _ _ _ => trivial) fun _ => ?_
  cases ho : (env cfg st).cfg.optionNames root with
  | none => exact fun _ _ _ => rfl
  | some keys =>
    dsimp only
    refine FailKeeps.bind (Q' := fun _ => True) (fun w => by rw [addSection_apply]) (fun _ _ _ _ _ => trivial) fun _ => ?_
    refine FailKeeps.bind (Q' := fun w => root ∈ w.processed) (fun _ => rfl) (fun _ w w' _ h => ?_) fun _ => ?_
    · cases h
      exact (mem_setAdd _ _ _).2 (.inl rfl)
    refine FailKeeps.bind (Q' := fun w => root ∈ w.processed)
      (keepsSelf_forEach keys fun k hk => keepsSelf_option hn ho hk fun t => keepsSelf_parseR hn n root t true)
      (fun _ w w' hw h => forEach_keeps_proc n keys hw h) fun _ => ?_
    simp only [Bool.true_and, decide_true, if_true]
    intro w hw hfail
    rw [M.bind_def] at hfail ⊢
    obtain ⟨h1, h2, _⟩ := Sim.call (E := env cfg st) (root := root) (path := w.processed) hookFinal
      { sectionName := root, sectionRoot := root, handlerName := py!"handler_finalize" } w fun _ => Iff.rfl
    cases hc : callHandler (env cfg st) hookFinal
      { sectionName := root, sectionRoot := root, handlerName := py!"handler_finalize" } w with
    | mk x w' =>
      rw [hc] at h1 h2
      dsimp only at h1 h2
      rw [show (env cfg st).hookFinal = hookFinal from rfl, hc] at hfail ⊢
      cases hsh : w.shared with
      | none =>
        have : replay (env cfg st) root [.call hookFinal
            { sectionName := root, sectionRoot := root, handlerName := py!"handler_finalize" }] w.toCore =
            (some .keyError, w.toCore) := by
          simp only [replay, evStep, hookFinal, hsh]
          rw [← hsh]
        rw [this] at h1 h2
        subst h1
        exact congrArg Core.self h2
      | some l =>
        exfalso
        have : (replay (env cfg st) root [.call hookFinal
            { sectionName := root, sectionRoot := root, handlerName := py!"handler_finalize" }] w.toCore).1 = none := by
          simp [replay, evStep, hookFinal, hsh, onReturn]
        rw [this] at h1
        subst h1
        have hp := (callHandler_ok_proc hc root).2 hw
        refine hfail () ?_
        simp only [outcomeV]
        rw [M.read_bind, if_pos hp, M.modify_bind]
        obtain ⟨w3, h3, _⟩ := logAdd_ok (env cfg st) (.sectionExit root) { w' with processed := setDel w'.processed root }
        rw [h3]

/-- A parse that fails leaves all stored lists as they were, and so does a parse without finalization. -/
theorem parseSection_self {cfg : Cfg} {st : Settings} (hn : NoHookOptions (env cfg st)) (n : Nat) (s : Str) (i f : Bool)
    (o : Obj Shared Actions)
    (h : f = false ∨ ∀ r, (parseSection (env cfg st) n s i f o).1 ≠ .ok r) :
    (parseSection (env cfg st) n s i f o).2.self = o.self := by
  by_cases hs : s = []
  · subst hs; rfl
  · rw [parseSection_apply _ _ hs] at h ⊢
    have key : f = false ∨ (∀ r, (parseR (env cfg st) n s s i f
        { toCore := startCore (env cfg st) s o.toCore, processed := [], log := [] }).1 ≠ .ok r) →
        (parseR (env cfg st) n s s i f { toCore := startCore (env cfg st) s o.toCore, processed := [], log := [] }).2.self =
          o.self := by
      rintro (rfl | h)
      · exact keepsSelf_parseR hn n s s i _
      · cases f with
        | false => exact keepsSelf_parseR hn n s s i _
        | true =>
          cases n with
          | zero => rfl
          | succ n =>
            have fk : FailKeeps (fun _ => True) (parseR (env cfg st) (n + 1) s s i true) := by
              cases i with
              | false =>
                rw [parseR_succ_other (.inl rfl)]
                exact failKeeps_main hn n s
              | true =>
                rw [parseR_succ_init]
                refine FailKeeps.bind (keepsSelf_hookInit cfg st _) (Q' := fun _ => True) (fun _ _ _ _ _ => trivial)
                  fun _ => ?_
                split
                · exact FailKeeps.bind (keepsSelf_parseR hn n s _ false) (Q' := fun _ => True)
                    (fun _ _ _ _ _ => trivial) fun _ => failKeeps_main hn n s
                · exact failKeeps_main hn n s
            exact fk _ trivial h
    generalize parseR (env cfg st) n s s i f _ = x at h key ⊢
    obtain ⟨r, w⟩ := x
    cases r with
    | ok u =>
      refine key (h.imp_right fun h => absurd rfl (h _))
    | exc e => exact key (.inr fun r hr => by cases hr)
    | diverge => exact key (.inr fun r hr => by cases hr)

/-! ### Files without options named after the hooks -/

theorem meaning_op {δ ω : Type} {E : Env δ ω} {root s k : Str} {evs : List (Ev δ ω)} (h : meaning E root s k = .events evs)
    {hd : Handler δ ω} {c : HCall} (hm : .call hd c ∈ evs) :
    ∃ word params, shlexSplit (strip k) = .ok (word :: params) ∧ c.op = opName word ∧ c.params = params := by
  unfold meaning at h
  split at h
  · cases h; simp at hm
  · dsimp only at h
    split at h
    · cases h; simp at hm
    · cases h; simp at hm
    · rename_i word params hs
      refine ⟨word, params, hs, ?_⟩
      split at h
      · split at h
        · cases h; simp at hm
        · cases h
          simp only [List.mem_cons, List.not_mem_nil, or_false] at hm
          cases hm
          exact ⟨rfl, rfl⟩
        · cases h
          simp only [List.mem_cons, List.not_mem_nil, or_false] at hm
          rcases hm with hm | hm
          · cases hm
          · cases hm
            exact ⟨rfl, rfl⟩
        · cases h
          simp only [List.mem_cons, List.not_mem_nil, or_false] at hm
          cases hm
          exact ⟨rfl, rfl⟩
        · split at h
          · cases h; simp at hm
          · cases h
      · cases h; simp at hm

theorem mem_of_get? {ν : Type} {d : Dict Str ν} {k : Str} {v : ν} (h : Dict.get? d k = some v) : (k, v) ∈ d := by
  induction d with
  | nil => cases h
  | cons p d ih =>
    obtain ⟨k', v'⟩ := p
    unfold Dict.get? at h
    split at h
    · rename_i e
      cases h
      rw [e]
      exact .head _
    · exact .tail _ (ih h)

/-- The option names of a file. -/
def allKeys (cfg : Cfg) : List Str := Dict.keys cfg.common ++ cfg.sections.flatMap fun p => Dict.keys p.2

/-- The option does not name a hook. -/
def notHook (k : Str) : Bool :=
  match shlexSplit (strip k) with
  | .ok (word :: _) => decide (opName word ≠ py!"initialize" ∧ opName word ≠ py!"finalize")
  | _ => true

theorem mem_allKeys {cfg : Cfg} {t : Str} {keys : List Str} (h : cfg.optionNames t = some keys) {k : Str} (hk : k ∈ keys) :
    k ∈ allKeys cfg := by
  unfold Cfg.optionNames at h
  unfold allKeys
  split at h
  · cases h; exact List.mem_append_left _ hk
  · split at h
    · cases h
    · rename_i os hos
      cases h
      rcases List.mem_append.1 hk with hk | hk
      · refine List.mem_append_right _ (List.mem_flatMap.2 ⟨(t, os), ?_, hk⟩)
        exact mem_of_get? hos
      · exact List.mem_append_left _ (List.mem_filter.1 hk).1

/-- A file is free of options named after the hooks if none of its option names is. -/
theorem noHookOptions_of {cfg : Cfg} (st : Settings) (h : ∀ k ∈ allKeys cfg, notHook k = true) :
    NoHookOptions (env cfg st) := by
  intro t keys k evs h1 h2 root h3 hd c hm
  obtain ⟨word, params, hs, ho, _⟩ := meaning_op h3 hm
  have := h k (mem_allKeys h1 h2)
  unfold notHook at this
  rw [hs] at this
  rw [ho]
  simpa using this

/-! ### Histories -/

/-- `m` keeps a property of the stored lists. -/
def KeepsLists {α : Type} (P : Actions → Prop) (m : M State α) : Prop := ∀ st, P st.obj.self → P (m st).2.obj.self

theorem KeepsLists.bind {α β : Type} {P : Actions → Prop} {m : M State α} {f : α → M State β}
    (h : KeepsLists P m) (hf : ∀ a, KeepsLists P (f a)) : KeepsLists P (m >>= f) := by
  intro st hst
  have h1 := h st hst
  rw [M.bind_def]
  cases hm : m st with
  | mk o st' =>
    rw [hm] at h1
    cases o with
    | ok a => exact hf a st' h1
    | exc e => exact h1
    | diverge => exact h1

theorem keepsLists_same {α : Type} {P : Actions → Prop} {m : M State α} (h : ∀ st, (m st).2.obj.self = st.obj.self) :
    KeepsLists P m := fun st hst => by rw [h st]; exact hst

theorem keepsLists_env {α : Type} {P : Actions → Prop} (m : M Environ α) : KeepsLists P (onEnv m) :=
  keepsLists_same fun _ => rfl

theorem keepsLists_obj {α : Type} {P : Actions → Prop} {m : M (Obj Shared Actions) α}
    (h : Keeps (fun o => P o.self) m) : KeepsLists P (onObj m) := fun st hst => h st.obj hst

theorem keepsLists_world {α : Type} {P : Actions → Prop} {m : M (World Shared Actions) α} (h : KeepsSelf m) :
    KeepsLists P (onObj (liftW m)) := keepsLists_same fun st => h st.obj.toWorld

theorem keepsSelf_pure {α : Type} (a : α) : KeepsSelf (pure a) := fun _ => rfl
theorem keepsSelf_raise {α : Type} (e : PyExc) : KeepsSelf (M.raise e : M (World Shared Actions) α) := fun _ => rfl
theorem keepsSelf_ofExcept {α : Type} (x : Except PyExc α) : KeepsSelf (M.ofExcept x : M (World Shared Actions) α) := by
  cases x <;> exact fun _ => rfl

theorem keepsSelf_genEnvvar (E : Env Shared Actions) (op name : Str) (value : Option Str) (interp : Str) :
    KeepsSelf (genEnvvar E op name value interp) := by
  unfold genEnvvar
  dsimp only
  refine KeepsSelf.bind ?_ fun args => ?_
  · split
    · exact keepsSelf_pure _
    · split
      · exact keepsSelf_pure _
      · exact (keepsSelf_event _ _ _).bind fun _ => keepsSelf_pure _
  · split
    · exact (keepsSelf_ofExcept _).bind fun _ => keepsSelf_pure _
    · split
      · exact (keepsSelf_ofExcept _).bind fun _ => keepsSelf_pure _
      · exact (keepsSelf_event _ _ _).bind fun _ => keepsSelf_pure _

theorem keepsSelf_genModule (E : Env Shared Actions) (op : Str) (name value : Option Str) (interp : Str) :
    KeepsSelf (genModule E op name value interp) := by
  unfold genModule
  dsimp only
  refine KeepsSelf.bind ?_ fun args => ?_
  · split
    · exact keepsSelf_pure _
    · split
      · exact keepsSelf_pure _
      · split
        · split
          · exact keepsSelf_pure _
          · split
            · exact keepsSelf_pure _
            · exact keepsSelf_raise _
        · split
          · exact keepsSelf_pure _
          · split
            · exact keepsSelf_pure _
            · exact (keepsSelf_event _ _ _).bind fun _ => keepsSelf_pure _
  · split
    · exact (keepsSelf_ofExcept _).bind fun _ => keepsSelf_pure _
    · split
      · exact (keepsSelf_ofExcept _).bind fun _ => keepsSelf_pure _
      · exact (keepsSelf_event _ _ _).bind fun _ => keepsSelf_pure _

theorem keepsSelf_bodyLines (E : Env Shared Actions) (interp : Str) (l : List Action) :
    KeepsSelf (bodyLines E interp l) := by
  induction l with
  | nil => exact keepsSelf_pure _
  | cons a l ih =>
    refine KeepsSelf.bind ?_ fun _ => ih.bind fun _ => keepsSelf_pure _
    cases a with
    | envvar op name value => exact keepsSelf_genEnvvar _ _ _ _ _
    | module op name value => exact keepsSelf_genModule _ _ _ _ _

section
variable {sys : Sys} {E : Env Shared Actions} {n : Nat} {A : Str → Bool → Bool → Prop} {P : Actions → Prop}

theorem keepsLists_applyLoop (l : List Action) (acc : Int) : KeepsLists P (applyLoop sys E l acc) := by
  induction l generalizing acc with
  | nil => exact keepsLists_same fun _ => rfl
  | cons a l ih =>
    refine KeepsLists.bind ?_ fun r => ih _
    cases a with
    | envvar op name value =>
      refine (keepsLists_world (keepsSelf_genEnvvar _ _ _ _ _)).bind fun cmd => (keepsLists_env _).bind fun out => ?_
      split
      · exact (keepsLists_world (keepsSelf_event _ _ _)).bind fun _ => keepsLists_same fun _ => rfl
      · exact keepsLists_same fun _ => rfl
    | module op name value =>
      refine (keepsLists_world (keepsSelf_genModule _ _ _ _ _)).bind fun cmd => (keepsLists_env _).bind fun out => ?_
      split
      · exact (keepsLists_world (keepsSelf_event _ _ _)).bind fun _ => keepsLists_same fun _ => rfl
      · exact keepsLists_same fun _ => rfl

theorem keepsLists_actionsOf (s : Str) : KeepsLists P (actionsOf s) := by
  refine keepsLists_same fun st => ?_
  unfold actionsOf
  rw [M.read_bind]
  cases Dict.get? st.obj.self s <;> rfl

variable (hP : ObjInv E n A fun o => P o.self)
include hP

theorem keepsLists_apply (s : Str) : KeepsLists P (apply sys E n s) := by
  refine KeepsLists.bind (keepsLists_obj ?_) fun _ => (keepsLists_actionsOf s).bind fun l => keepsLists_applyLoop l 0
  intro o ho
  have h := hP.options s o ho
  unfold ignoreKeyError
  rw [show edGetItem E n s = edOptions E n s from rfl]
  split <;> (rename_i h2; rw [h2] at h; exact h)

theorem keepsLists_script (s : Str) (hdr body sheb : Bool) (interp : Str) :
    KeepsLists P (generateScript sys E n s hdr body sheb interp) := by
  unfold generateScript
  split
  · exact (keepsLists_world (keepsSelf_event _ _ _)).bind fun _ => keepsLists_same fun _ => rfl
  · dsimp only
    split
    · refine KeepsLists.bind (keepsLists_same fun _ => rfl) fun st => ?_
      have rest : KeepsLists P (do
          let l ← actionsOf s
          let lines ← onObj (liftW (bodyLines E interp l))
          pure ((if sheb = true ∧ hdr = false then
            (if hdr = true then
              (if sheb = true then shebang interp else []) ++
                (if interp = py!"bash" then sys.bashHeader else sys.pythonHeader) ++ py!"\n\n"
            else []) ++ shebang interp else (if hdr = true then
              (if sheb = true then shebang interp else []) ++
                (if interp = py!"bash" then sys.bashHeader else sys.pythonHeader) ++ py!"\n\n"
            else [])) ++ bodyHeader ++ lines ++ py!"\n\n")) :=
        (keepsLists_actionsOf s).bind fun l => (keepsLists_world (keepsSelf_bodyLines _ _ _)).bind fun _ =>
          keepsLists_same fun _ => rfl
      split
      · exact (keepsLists_obj fun o ho => hP.parse s true true o (hP.full s) ho).bind fun _ => rest
      · exact rest
    · exact keepsLists_same fun _ => rfl

theorem keepsLists_exec (op : Op) (hop : ∀ s i f, op = .ed (.parseSection s i f) → A s i f) :
    KeepsLists P (op.exec sys E n) := by
  cases op with
  | ed op =>
    refine (keepsLists_obj (hP.exec op fun s i f h => hop s i f (h ▸ rfl))).bind fun _ => keepsLists_same fun _ => rfl
  | apply s => exact (keepsLists_apply hP s).bind fun _ => keepsLists_same fun _ => rfl
  | script s hdr body sheb interp =>
    exact (keepsLists_script hP s hdr body sheb interp).bind fun _ => keepsLists_same fun _ => rfl
  | write file s hdr body sheb interp =>
    refine KeepsLists.bind ?_ fun _ => keepsLists_same fun _ => rfl
    unfold writeScript
    split
    · exact (keepsLists_world (keepsSelf_event _ _ _)).bind fun _ => keepsLists_same fun _ => rfl
    · exact (keepsLists_script hP s hdr body sheb interp).bind fun _ => keepsLists_same fun _ => rfl

theorem keepsLists_run (ops : List Op) (hops : ∀ s i f, .ed (.parseSection s i f) ∈ ops → A s i f) (st : State)
    (hst : P st.obj.self) : P (Op.run sys E n ops st).obj.self := by
  induction ops generalizing st with
  | nil => exact hst
  | cons op ops ih =>
    exact ih (fun s i f h => hops s i f (.tail _ h)) _
      (keepsLists_exec hP op (fun s i f h => hops s i f (h ▸ .head _)) st hst)

end

end CPE.SetEnv
