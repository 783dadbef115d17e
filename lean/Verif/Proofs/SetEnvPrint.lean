import Verif.Spec.SetEnvPrint
import Verif.Proofs.Script
import Verif.Proofs.Apply
/-
Proofs about what `pretty_print_actions` and `pretty_print_envvars` print.
-/
namespace CPE.SetEnv
open CPE.Spec CPE.SetEnv.Spec

theorem fmtOpt_eq (v : Option Str) : fmtOpt v = orNone v := by cases v <;> rfl

theorem op_eq (a : Action) : a.op = opOf a := by cases a <;> rfl

theorem value_eq (a : Action) : a.value = valueOf a := by cases a <;> rfl

/-- The model says what the specification says. -/
theorem actionText_shown {repr : Action → Str} {a : Action} {t : Str} (h : Shown repr a t) :
    actionText repr a = .ok t := by
  cases h with
  | @load n v h =>
    simp [actionText, Action.op, Action.getModule, Action.value, Except.map, fmtOpt_eq, h, orNone]
  | purge h =>
    unfold actionText
    rw [op_eq, h]
    rfl
  | use h =>
    unfold actionText
    rw [op_eq, h, value_eq, fmtOpt_eq]
    rfl
  | other h =>
    unfold actionText
    rw [op_eq]
    have hne : ∀ x ∈ listedOps, opOf a ≠ x := fun x hx he => h (he ▸ hx)
    simp only [listedOps, envvarActions, moduleActions, opNames, List.map, List.mem_append, List.mem_cons,
      List.not_mem_nil, or_false] at hne
    repeat rw [if_neg (hne _ (by simp))]
  | append => simp [actionText, Action.op, Action.getEnvvar, Action.value, Except.map, fmtOpt_eq]
  | prepend => simp [actionText, Action.op, Action.getEnvvar, Action.value, Except.map, fmtOpt_eq]
  | removeSubstr => simp [actionText, Action.op, Action.getEnvvar, Action.value, Except.map, fmtOpt_eq]
  | _ => simp [actionText, Action.op, Action.getEnvvar, Action.getModule, Action.value, Except.map, fmtOpt_eq]

theorem actionText_lacks {repr : Action → Str} {a : Action} (h : Lacks a) : actionText repr a = .error .keyError := by
  cases h with
  | module h =>
    simp only [List.mem_cons, List.not_mem_nil, or_false] at h
    rcases h with rfl | rfl | rfl <;> simp [actionText, Action.op, Action.getModule, Except.map]
  | envvar h =>
    simp only [envvarActions, opNames, List.map, List.mem_cons, List.not_mem_nil, or_false] at h
    rcases h with h | h | h | h | h | h | h | h | h <;> subst h <;>
      simp [actionText, Action.op, Action.getEnvvar, Except.map]

/-- Every action can be shown, or lacks what the listing reads. -/
theorem shown_or_lacks (repr : Action → Str) (a : Action) : (∃ t, Shown repr a t) ∨ Lacks a := by
  by_cases h : opOf a ∈ listedOps
  · rcases List.mem_append.1 h with h | h
    · cases a with
      | module op n v => exact .inr (.envvar h)
      | envvar op n v =>
        simp only [opOf, envvarActions, opNames, List.map, List.mem_cons, List.not_mem_nil, or_false] at h
        rcases h with h | h | h | h | h | h | h | h | h <;> subst h
        · exact .inl ⟨_, .set⟩
        · exact .inl ⟨_, .setIfEmpty⟩
        · exact .inl ⟨_, .append⟩
        · exact .inl ⟨_, .prepend⟩
        · exact .inl ⟨_, .unset⟩
        · exact .inl ⟨_, .removeSubstr⟩
        · exact .inl ⟨_, .removeEntry⟩
        · exact .inl ⟨_, .find⟩
        · exact .inl ⟨_, .assert⟩
    · simp only [moduleActions, List.mem_cons, List.not_mem_nil, or_false] at h
      rcases h with h | h | h | h | h
      · cases a with
        | envvar op n v => cases h; exact .inr (.module (by simp))
        | module op n v =>
          cases h
          cases v with
          | none => exact .inl ⟨_, .loadDefault⟩
          | some v =>
            by_cases hv : v = []
            · subst hv; exact .inl ⟨_, .loadEmpty⟩
            · exact .inl ⟨_, .load hv⟩
      · exact .inl ⟨_, .purge h⟩
      · cases a with
        | envvar op n v => cases h; exact .inr (.module (by simp))
        | module op n v => cases h; exact .inl ⟨_, .swap⟩
      · cases a with
        | envvar op n v => cases h; exact .inr (.module (by simp))
        | module op n v => cases h; exact .inl ⟨_, .unload⟩
      · exact .inl ⟨_, .use h⟩
  · exact .inl ⟨_, .other h⟩

theorem shown_det {repr : Action → Str} {a : Action} {t t' : Str} (h : Shown repr a t) (h' : Shown repr a t') : t = t' := by
  have := (actionText_shown h).symm.trans (actionText_shown h')
  cases this
  rfl

theorem shown_not_lacks {repr : Action → Str} {a : Action} {t : Str} (h : Shown repr a t) : ¬ Lacks a := by
  intro h'
  have := (actionText_shown h).symm.trans (actionText_lacks (repr := repr) h')
  cases this

theorem all_spaces {pad : Str} (h : ∀ c ∈ pad, c = ' ') : pad = List.replicate pad.length ' ' :=
  List.eq_replicate_iff.2 ⟨rfl, h⟩

theorem label_iff {w : Nat} {a : Action} {t : Str} :
    Label w a t ↔ (opOf a).length ≤ w ∧ t = py!"--> " ++ ljust w (opOf a) ++ py!" : " := by
  constructor
  · rintro ⟨pad, hp, hl, rfl⟩
    rw [List.length_append] at hl
    refine ⟨by omega, ?_⟩
    unfold ljust
    rw [all_spaces hp]
    have : w - (opOf a).length = pad.length := by omega
    rw [this]
    simp
  · rintro ⟨h, rfl⟩
    refine ⟨List.replicate (w - (opOf a).length) ' ', fun c hc => List.eq_of_mem_replicate hc, ?_, ?_⟩
    · rw [List.length_append, List.length_replicate]; omega
    · unfold ljust; simp

theorem width_foldl (l : List Action) : ∀ w0, w0 ≤ l.foldl (fun w a => max w a.op.length) w0 ∧
    (∀ a ∈ l, (opOf a).length ≤ l.foldl (fun w a => max w a.op.length) w0) ∧
    (l.foldl (fun w a => max w a.op.length) w0 = w0 ∨
      ∃ a ∈ l, (opOf a).length = l.foldl (fun w a => max w a.op.length) w0) := by
  induction l with
  | nil => intro w0; simp
  | cons a l ih =>
    intro w0
    obtain ⟨h1, h2, h3⟩ := ih (max w0 a.op.length)
    rw [List.foldl_cons]
    refine ⟨by omega, ?_, ?_⟩
    · intro b hb
      rcases List.mem_cons.1 hb with rfl | hb
      · rw [← op_eq]; omega
      · exact h2 b hb
    · rcases h3 with h3 | ⟨b, hb, h3⟩
      · rw [h3]
        by_cases hm : w0 ≤ a.op.length
        · exact .inr ⟨a, List.mem_cons_self, by rw [← op_eq]; omega⟩
        · exact .inl (by omega)
      · exact .inr ⟨b, List.mem_cons_of_mem _ hb, h3⟩

theorem opWidth_wide (l : List Action) : Wide l (opWidth l) := width_foldl l 14

theorem wide_det {l : List Action} {w w' : Nat} (h : Wide l w) (h' : Wide l w') : w = w' := by
  obtain ⟨h1, h2, h3⟩ := h
  obtain ⟨h1', h2', h3'⟩ := h'
  have a : w ≤ w' := by
    rcases h3 with h3 | ⟨a, ha, h3⟩
    · omega
    · have := h2' a ha; omega
  have b : w' ≤ w := by
    rcases h3' with h3 | ⟨a, ha, h3⟩
    · omega
    · have := h2 a ha; omega
  omega

theorem print_bind {α : Type} (t : Str) (f : Unit → M Console α) (c : Console) :
    (print t >>= f) c = f () { c with stdout := c.stdout ++ t } := rfl

theorem ofExcept_bind {W α β : Type} (a : α) (f : α → M W β) (w : W) : (M.ofExcept (.ok a) >>= f) w = f a w := rfl

theorem ofExcept_exc_bind {W α β : Type} (e : PyExc) (f : α → M W β) (w : W) :
    (M.ofExcept (.error e) >>= f) w = (.exc e, w) := rfl

theorem printRows_rows {repr : Action → Str} {w : Nat} {l : List Action} {t : Str} (h : Rows repr w l t) (c : Console) :
    printRows repr w l c = (.ok (), { c with stdout := c.stdout ++ t }) := by
  induction h generalizing c with
  | nil => simp [printRows]; rfl
  | cons hl hs _ ih =>
    obtain ⟨_, rfl⟩ := label_iff.1 hl
    unfold printRows
    rw [print_bind, actionText_shown hs, ofExcept_bind, print_bind, ih, op_eq]
    simp

theorem printRows_lacks {repr : Action → Str} {w : Nat} {l₁ l₂ : List Action} {a : Action} {t lab : Str}
    (h : Rows repr w l₁ t) (hl : Label w a lab) (ha : Lacks a) (c : Console) :
    printRows repr w (l₁ ++ a :: l₂) c = (.exc .keyError, { c with stdout := c.stdout ++ t ++ lab }) := by
  induction h generalizing c with
  | nil =>
    obtain ⟨_, rfl⟩ := label_iff.1 hl
    rw [List.nil_append]
    unfold printRows
    rw [print_bind, actionText_lacks ha, ofExcept_exc_bind, op_eq]
    simp
  | cons hl' hs _ ih =>
    obtain ⟨_, rfl⟩ := label_iff.1 hl'
    rw [List.cons_append]
    unfold printRows
    rw [print_bind, actionText_shown hs, ofExcept_bind, print_bind, ih, op_eq]
    simp

/-- Rows exist for every list up to the first action that cannot be shown. -/
theorem rows_or_lacks (repr : Action → Str) {w : Nat} {l : List Action} (hw : ∀ a ∈ l, (opOf a).length ≤ w) :
    (∃ t, Rows repr w l t) ∨ ∃ l₁ a l₂ t lab, l = l₁ ++ a :: l₂ ∧ Rows repr w l₁ t ∧ Label w a lab ∧ Lacks a := by
  induction l with
  | nil => exact .inl ⟨_, .nil⟩
  | cons a l ih =>
    have hlab : Label w a _ := label_iff.2 ⟨hw a List.mem_cons_self, rfl⟩
    rcases shown_or_lacks repr a with ⟨t, ht⟩ | ha
    · rcases ih fun b hb => hw b (List.mem_cons_of_mem _ hb) with ⟨ts, h⟩ | ⟨l₁, b, l₂, ts, lab, rfl, h1, h2, h3⟩
      · exact .inl ⟨_, .cons hlab ht h⟩
      · exact .inr ⟨a :: l₁, b, l₂, _, lab, rfl, .cons hlab ht h1, h2, h3⟩
    · exact .inr ⟨[], a, l, [], _, rfl, .nil, hlab, ha⟩

theorem rows_det {repr : Action → Str} {w : Nat} {l : List Action} {t t' : Str} (h : Rows repr w l t)
    (h' : Rows repr w l t') : t = t' := by
  induction h generalizing t' with
  | nil => cases h'; rfl
  | cons hl hs _ ih =>
    cases h' with
    | cons hl' hs' h' =>
      rw [(label_iff.1 hl).2, (label_iff.1 hl').2, shown_det hs hs', ih h']

/-- What a file asks for can be shown. -/
theorem actionList_shown {cs : List HCall} {l : List Action} (h : ActionList cs l) :
    ∀ a ∈ l, ¬ Lacks a ∧ opOf a ∈ listedOps := by
  have hy : ∀ {c : HCall} {a : Action}, yields c = some a → ¬ Lacks a ∧ opOf a ∈ listedOps := by
    intro c a h
    unfold yields at h
    split at h
    · rename_i hc
      split at h
      · cases h
        refine ⟨?_, List.mem_append_left _ hc⟩
        intro hl
        cases hl with
        | module hm =>
          generalize c.op = op at hc hm
          simp only [List.mem_cons, List.not_mem_nil, or_false] at hm
          rcases hm with rfl | rfl | rfl <;> revert hc <;> decide
      · cases h
    · split at h
      · rename_i hn hm
        cases h
        refine ⟨?_, List.mem_append_right _ hm⟩
        intro hl
        cases hl with
        | envvar he => exact hn he
      · cases h
  induction h with
  | nil => intro a ha; cases ha
  | skip _ _ ih => exact ih
  | removed _ _ _ _ ih => exact ih
  | kept h1 _ _ ih =>
    intro a ha
    rcases List.mem_cons.1 ha with rfl | ha
    · exact hy h1
    · exact ih a ha

/-! ### Variables -/

theorem mentions_iff {fs : List Str} {k : Str} : filterHits (fs.map some) k = .ok true ↔ Mentions fs k := by
  induction fs with
  | nil => simp [filterHits, Mentions]
  | cons f fs ih =>
    rw [List.map_cons, filterHits]
    by_cases h : isSubstr f k = true
    · rw [if_pos h]
      obtain ⟨x, y, h⟩ := (isSubstr_iff f k).1 h
      simp only [true_iff]
      exact ⟨f, List.mem_cons_self, x, y, h⟩
    · rw [if_neg h, ih]
      constructor
      · rintro ⟨g, hg, h'⟩
        exact ⟨g, List.mem_cons_of_mem _ hg, h'⟩
      · rintro ⟨g, hg, h'⟩
        rcases List.mem_cons.1 hg with rfl | hg
        · exact absurd ((isSubstr_iff g k).2 h') h
        · exact ⟨g, hg, h'⟩

theorem filterHits_texts (fs : List Str) (k : Str) :
    (Mentions fs k ∧ filterHits (fs.map some) k = .ok true) ∨ (¬ Mentions fs k ∧ filterHits (fs.map some) k = .ok false) := by
  have hb : ∃ b, filterHits (fs.map some) k = .ok b := by
    induction fs with
    | nil => exact ⟨_, rfl⟩
    | cons f fs ih =>
      rw [List.map_cons, filterHits]
      split
      · exact ⟨_, rfl⟩
      · exact ih
  obtain ⟨b, hb⟩ := hb
  cases b with
  | true => exact .inl ⟨mentions_iff.1 hb, hb⟩
  | false =>
    refine .inr ⟨fun h => ?_, hb⟩
    rw [mentions_iff.2 h] at hb
    cases hb

theorem varLine_exists (filter : Option (List Str)) (only : Bool) (k v : Str) : ∃ t, VarLine filter only k v t := by
  cases filter with
  | none => exact ⟨_, .all⟩
  | some fs =>
    rcases filterHits_texts fs k with ⟨h, _⟩ | ⟨h, _⟩
    · exact ⟨_, .hit h⟩
    · cases only with
      | true => exact ⟨_, .hidden h⟩
      | false => exact ⟨_, .name h⟩

theorem varLines_exists (filter : Option (List Str)) (only : Bool) (l : List (Str × Str)) :
    ∃ t, VarLines filter only l t := by
  induction l with
  | nil => exact ⟨_, .nil⟩
  | cons kv l ih =>
    obtain ⟨t, h⟩ := varLine_exists filter only kv.1 kv.2
    obtain ⟨ts, hs⟩ := ih
    exact ⟨_, .cons h hs⟩

theorem varLines_none {only only' : Bool} {l : List (Str × Str)} {t : Str} (h : VarLines none only l t) :
    VarLines none only' l t := by
  induction h with
  | nil => exact .nil
  | cons h _ ih => cases h; exact .cons .all ih

theorem printVars_lines {filter : Option (List Str)} {only : Bool} {l : List (Str × Str)} {t : Str}
    (h : VarLines filter only l t) (c : Console) :
    printVars (filterArg filter) only l c = (.ok (), { c with stdout := c.stdout ++ t }) := by
  induction h generalizing c with
  | nil => simp [printVars]; rfl
  | @cons k v rest t ts hl hs ih =>
    cases filter with
    | none =>
      have ih' : ∀ (o : Bool) c, printVars .none o rest c = (.ok (), { c with stdout := c.stdout ++ ts }) := by
        clear ih hl
        intro o
        induction hs generalizing o with
        | nil => intro c; simp [printVars]; rfl
        | cons hl _ ih =>
          intro c
          cases hl
          unfold printVars
          dsimp only
          rw [print_bind, ih]
          simp
      cases hl
      unfold filterArg printVars
      dsimp only
      rw [print_bind, ih']
      simp
    | some fs =>
      have hv : ∃ hit, filterHits (fs.map some) k = .ok hit ∧ t = varText only hit k v := by
        cases hl with
        | hit hm => exact ⟨true, mentions_iff.2 hm, by simp [varText]⟩
        | name hm =>
          rcases filterHits_texts fs k with ⟨h, _⟩ | ⟨_, h⟩
          · exact absurd h hm
          · exact ⟨false, h, by simp [varText]⟩
        | hidden hm =>
          rcases filterHits_texts fs k with ⟨h, _⟩ | ⟨_, h⟩
          · exact absurd h hm
          · exact ⟨false, h, by simp [varText]⟩
      obtain ⟨hit, h1, rfl⟩ := hv
      unfold filterArg printVars
      dsimp only
      rw [h1, ofExcept_bind, print_bind]
      have := ih { c with stdout := c.stdout ++ varText only hit k v }
      unfold filterArg at this
      dsimp only at this
      rw [this]
      simp

theorem varsBanner_eq : varsBanner = varBanner := by decide +kernel

end CPE.SetEnv
