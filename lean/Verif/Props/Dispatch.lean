import Verif.Spec.Dispatch
import Verif.Model.Operations
import Verif.Props.Settings
import Verif.Props.Shlex
/-
C10, C11, C38: which handler gets an option, and which options are stored.
-/
namespace CPE.Props
open Spec
variable {δ ω : Type} {E : Env δ ω} {n : Nat} {s : Str} {i f : Bool} {o o' : Obj δ ω} {r : δ}

/-! ### the text helpers against their specification -/

theorem stripBy_iff {q : Char → Bool} {p : Char → Prop} (hq : ∀ c, q c = true ↔ p c) (s t : Str) :
    stripBy q s = t ↔ Trimmed p s t := by
  have hf : ∀ c, q c = false ↔ ¬ p c := fun c => by rw [← hq c]; simp
  constructor
  · rintro rfl
    obtain ⟨a, b, h1, h2, h3⟩ := stripBy_split q s
    exact ⟨a, b, h1, fun c h => (hq c).mp (h2 c h), fun c h => (hq c).mp (h3 c h),
      fun c h => (hf c).mp (stripBy_head h), fun c h => (hf c).mp (stripBy_last h)⟩
  · rintro ⟨a, b, h1, h2, h3, h4, h5⟩
    exact stripBy_unique h1 (fun c h => (hq c).mpr (h2 c h)) (fun c h => (hq c).mpr (h3 c h))
      (fun c h => (hf c).mpr (h4 c h)) (fun c h => (hf c).mpr (h5 c h))

/-- C11: `str.strip()` as used on keys and values. -/
theorem C11_strip (s t : Str) : strip s = t ↔ Trimmed White s t := stripBy_iff isSpace_iff s t

/-- C11: removal of surrounding double quotes. -/
theorem C11_strip_quotes (s t : Str) : stripQuotes s = t ↔ Trimmed (· = '"') s t :=
  stripBy_iff (fun c => by simp) s t

theorem cleaned_iff (x y : Option Str) : Cleaned x y ↔ y = x.map fun s => stripQuotes (strip s) := by
  constructor
  · rintro (_ | ⟨h1, h2⟩)
    · rfl
    · rw [← C11_strip] at h1
      rw [← C11_strip_quotes] at h2
      simp [h1, h2]
  · rintro rfl
    cases x with
    | none => exact .none
    | some x => exact .text ((C11_strip x _).mp rfl) ((C11_strip_quotes _ _).mp rfl)

theorem hasPublic_iff (E : Env δ ω) (op : Str) : HasPublic E op ↔ publicHandler E op ≠ none := by
  unfold HasPublic publicHandler
  by_cases h1 : op = py!"initialize"
  · simp [h1]
  · by_cases h2 : op = py!"finalize"
    · simp [h2]
    · simp [h1, h2]

/-! ### C10: the table -/

/-- C10: what an option does, by the words of its key and the methods of the class. -/
theorem C10_routing (E : Env δ ω) (root s key op : Str) (params : List Str) (x v : Option Str)
    (hx : E.cfg.value s key = .ok x) (hv : Cleaned x v) (hk : Operates (strip key) op params) :
    let call (name : Str) (h : Handler δ ω) : Ev δ ω := .call h
      { sectionName := s, sectionRoot := root, rawKey := some (strip key), rawValue := v, op := op, params := params,
        value := v, handlerName := name }
    -- a public method, alone or with a private one of the same name
    (∀ h, publicHandler E op = some h → ¬ HasPrivate E op →
      meaning E root s key = .events [call (py!"handler_" ++ op) h]) ∧
    (∀ h, publicHandler E op = some h → HasPrivate E op →
      meaning E root s key = .events [.ambiguous op, call (py!"handler_" ++ op) h]) ∧
    -- only a private one, the built-in `use` or another
    (∀ h, ¬ HasPublic E op → E.priv op = some (.user h) → meaning E root s key = .events [call (py!"_handler_" ++ op) h]) ∧
    (∀ t ps, ¬ HasPublic E op → E.priv op = some .use → params = t :: ps → meaning E root s key = .link t) ∧
    (¬ HasPublic E op → E.priv op = some .use → params = [] → meaning E root s key = .events [.fail .indexError]) ∧
    -- no method
    (¬ HasPublic E op → ¬ HasPrivate E op → meaning E root s key = .events [.store (strip key) v]) := by
  obtain ⟨w, hw, how, rfl⟩ := hk
  rw [← C31_split_iff_words] at hw
  rw [cleaned_iff] at hv
  subst hv
  simp only [hasPublic_iff, HasPrivate, ne_eq, Decidable.not_not]
  unfold meaning
  rw [hx]
  dsimp only
  rw [hw]
  dsimp only
  rw [if_pos how]
  refine ⟨?_, ?_, ?_, ?_, ?_, ?_⟩
  · intro h h1 h2; rw [h1, h2]
  · intro h h1 h2
    rw [h1]
    cases hp : E.priv (opName w) with
    | none => exact absurd hp h2
    | some i => rfl
  · intro h h1 h2; rw [h1, h2]
  · intro t ps h1 h2 h3; rw [h1, h2, h3]
  · intro h1 h2 h3; rw [h1, h2, h3]
  · intro h1 h2; rw [h1, h2]

/-- C10: a key whose first word is not made of `[\w-]` is stored. -/
theorem C10_not_an_operation (E : Env δ ω) (root s key w : Str) (ps : List Str) (x v : Option Str)
    (hx : E.cfg.value s key = .ok x) (hv : Cleaned x v) (hk : Words (strip key) (w :: ps)) (hw : ¬ OpWord w) :
    meaning E root s key = .events [.store (strip key) v] := by
  rw [← C31_split_iff_words] at hk
  rw [cleaned_iff] at hv
  subst hv
  unfold meaning
  rw [hx]
  dsimp only
  rw [hk]
  dsimp only
  rw [if_neg hw]

/-- C10: what makes two words the same operation: they differ at most in `-` versus `_`. -/
theorem C10_same_operation (w w' : Str) : opName w = opName w' ↔
    w.length = w'.length ∧ ∀ j (h : j < w.length) (h' : j < w'.length),
      w[j] = w'[j] ∨ (w[j] = '-' ∧ w'[j] = '_') ∨ (w[j] = '_' ∧ w'[j] = '-') := by
  have key : ∀ a b : Char, ((if a = '-' then '_' else a) = if b = '-' then '_' else b) ↔
      (a = b ∨ (a = '-' ∧ b = '_') ∨ (a = '_' ∧ b = '-')) := by
    intro a b
    by_cases ha : a = '-' <;> by_cases hb : b = '-'
    · simp [ha, hb]
    · simp [ha, hb, eq_comm]
    · simp [ha, hb]
    · simp [ha, hb]
  unfold opName
  constructor
  · intro h
    have hl : w.length = w'.length := by simpa using congrArg List.length h
    refine ⟨hl, fun j h1 h2 => ?_⟩
    rw [← key]
    have := congrArg (fun l => l[j]?) h
    simpa [h1, h2] using this
  · rintro ⟨hl, h⟩
    refine List.ext_getElem (by simpa using hl) fun j h1 h2 => ?_
    simp only [List.getElem_map]
    rw [key]
    exact h j (by simpa using h1) (by simpa using h2)

/-- C10: two options of a section with the same value whose keys have the same operation up to dashes and the same
parameters go to the same place: same `use`, same handler with the same parameters, both stored, or both refused. -/
theorem C10_dash_is_underscore (E : Env δ ω) (root s key key' w w' : Str) (ps : List Str)
    (hv : E.cfg.value s key = E.cfg.value s key') (hk : Words (strip key) (w :: ps)) (hk' : Words (strip key') (w' :: ps))
    (hw : OpWord w) (hw' : OpWord w') (heq : opName w = opName w') :
    (∀ t, meaning E root s key = .link t ↔ meaning E root s key' = .link t) ∧
    (∀ e, meaning E root s key = .events [.fail e] ↔ meaning E root s key' = .events [.fail e]) ∧
    (∀ v, meaning E root s key = .events [.store (strip key) v] ↔ meaning E root s key' = .events [.store (strip key') v]) ∧
    (∀ h (c : HCall), meaning E root s key = .events [.call h { c with rawKey := some (strip key) }] ↔
      meaning E root s key' = .events [.call h { c with rawKey := some (strip key') }]) ∧
    (∀ op h (c : HCall), meaning E root s key = .events [.ambiguous op, .call h { c with rawKey := some (strip key) }] ↔
      meaning E root s key' = .events [.ambiguous op, .call h { c with rawKey := some (strip key') }]) := by
  rw [← C31_split_iff_words] at hk hk'
  let call (k : Str) (x : Option Str) (name : Str) (h : Handler δ ω) : Ev δ ω := .call h
    { sectionName := s, sectionRoot := root, rawKey := some k, rawValue := x, op := opName w', params := ps,
      value := x, handlerName := name }
  let clean (x : Option Str) : Option Str := x.map fun x => stripQuotes (strip x)
  have h1 : ∀ key w, E.cfg.value s key = E.cfg.value s key' → shlexSplit (strip key) = .ok (w :: ps) → OpWord w →
      opName w = opName w' → meaning E root s key = match E.cfg.value s key' with
        | .error e => .events [.fail e]
        | .ok x => match publicHandler E (opName w'), E.priv (opName w') with
          | none, none => .events [.store (strip key) (clean x)]
          | some h, none => .events [call (strip key) (clean x) (py!"handler_" ++ opName w') h]
          | some h, some _ => .events [.ambiguous (opName w'), call (strip key) (clean x) (py!"handler_" ++ opName w') h]
          | none, some (.user h) => .events [call (strip key) (clean x) (py!"_handler_" ++ opName w') h]
          | none, some .use => match (generalizing := false) ps with
            | [] => .events [.fail .indexError]
            | t :: _ => .link t := by
    intro key w hv hk hw heq
    unfold meaning
    rw [hv]
    cases E.cfg.value s key' with
    | error e => rfl
    | ok x =>
      dsimp only
      rw [hk]
      dsimp only
      rw [if_pos hw, heq]
      rfl
  rw [h1 key w hv hk hw heq, h1 key' w' rfl hk' hw' rfl]
  cases E.cfg.value s key' with
  | error e => simp
  | ok x =>
    dsimp only
    split
    · simp
    · simp [HCall.mk.injEq, call]
    · simp [HCall.mk.injEq, call]
    · simp [HCall.mk.injEq, call]
    · split <;> simp

/-! ### C10: ambiguity -/

/-- The class without the private methods that are shadowed by public ones. -/
def unshadowed (E : Env δ ω) : Env δ ω :=
  { E with priv := fun op => if (publicHandler E op).isSome = true then none else E.priv op }

theorem tuned_unshadowed (E : Env δ ω) (hl : E.level < 3) :
    Tuned false false E E.level E.silentWarnings E.compactWarnings E.debug (unshadowed E).priv where
  ev ev e := by
    intro w w' h _
    obtain ⟨h1, h2, h3, h4, h5, h6⟩ := h
    exact ⟨rfl, h1, h2, h3, h4, h5, fun h => by cases h⟩
  loc op := by
    intro w w' hw _
    have h1 := locateHandler_eq E op
    have hidem : opOfToken (opOfToken op) = opOfToken op := by
      rw [opOfToken_eq, opOfToken_eq]; exact opName_idem op
    have hopn : ∀ F : Env δ ω, locateHandler F op = locateHandler F (opOfToken op) := by
      intro F; unfold locateHandler; rw [hidem]
    rw [hopn, hopn, locateHandler_eq, locateHandler_eq]
    have hp : ∀ x, publicHandler (E.tune E.level E.silentWarnings E.compactWarnings E.debug (unshadowed E).priv) x =
        publicHandler E x := fun x => rfl
    have hpv : (E.tune E.level E.silentWarnings E.compactWarnings E.debug (unshadowed E).priv).priv (opName op) =
        if (publicHandler E (opName op)).isSome = true then none else E.priv (opName op) := rfl
    rw [hp, hpv]
    cases hpub : publicHandler E (opName op) with
    | none =>
      simp only [Option.isSome_none, Bool.false_eq_true, if_false]
      cases E.priv (opName op) <;> exact ⟨rfl, hw⟩
    | some h =>
      simp only [Option.isSome_some, if_true]
      cases E.priv (opName op) with
      | none => exact ⟨rfl, hw⟩
      | some im =>
        dsimp only
        have hne : Event.serious ≠ .silent := by intro h; cases h
        obtain ⟨e1, e2, e3, e4⟩ := ecEvent_apply E .serious .ambiguousHandler hne w
        have hlr : ¬ Event.serious.levelReq ≤ E.level := by
          have : Event.serious.levelReq = 3 := rfl
          omega
        have hn1 : (notify E .serious Event.serious.levelReq .ambiguousHandler w.toCore).1 = none := by
          unfold notify
          rw [if_neg hlr]
          split <;> rfl
        obtain ⟨c1, c2, c3, c4⟩ := notify_core E .serious Event.serious.levelReq .ambiguousHandler w.toCore
        rw [hn1] at e1
        rw [M.bind_def]
        cases hec : ecEvent E .serious .ambiguousHandler w with
        | mk x w1 =>
          rw [hec] at e1 e2 e3
          dsimp only at e1 e2 e3
          subst e1
          obtain ⟨h1, h2, h3, h4, h5, h6⟩ := hw
          refine ⟨rfl, ?_, ?_, ?_, ?_, ?_, fun h => by cases h⟩
          · exact h1.trans (c1.symm.trans (congrArg Core.data e2).symm)
          · exact h2.trans (c2.symm.trans (congrArg Core.checked e2).symm)
          · exact h3.trans (c3.symm.trans (congrArg Core.shared e2).symm)
          · exact h4.trans (c4.symm.trans (congrArg Core.self e2).symm)
          · exact h5.trans e3.symm

/-- C10: below level 3 the public method is used and the private one of the same name is as if it were not there:
after any history, every operation gives the same result and the same data on the class without the shadowed
private methods; only notices differ. -/
theorem C10_public_wins (E : Env δ ω) (hl : E.level < 3) (n : Nat) (ops : List EdOp) (op : EdOp) (o : Obj δ ω) :
    (op.exec (unshadowed E) n (EdOp.run (unshadowed E) n ops o)).1 = (op.exec E n (EdOp.run E n ops o)).1 ∧
    SameButLog false (op.exec E n (EdOp.run E n ops o)).2 (op.exec (unshadowed E) n (EdOp.run (unshadowed E) n ops o)).2 := by
  have h0 : SameObj false o o := ⟨⟨rfl, rfl, rfl, rfl, rfl, fun _ => rfl⟩, rfl⟩
  have h1 := run_two (tuned_unshadowed E hl) n ops o o h0
  have h2 := Two.exec (tuned_unshadowed E hl) n op _ _ h1 (fun h => by cases h)
  exact ⟨h2.1, sameButLog_iff.mpr h2.2⟩

/-- Section `t` has an option whose operation has a public and a private method. -/
def HasAmbiguous (E : Env δ ω) (t : Str) : Prop :=
  ∃ keys key op ps, E.cfg.optionNames t = some keys ∧ key ∈ keys ∧ Operates (strip key) op ps ∧ HasPublic E op ∧ HasPrivate E op

theorem ambiguous_mem (E : Env δ ω) {root t key op : Str} {ps : List Str}
    (hop : Operates (strip key) op ps) (h1 : HasPublic E op) (h2 : HasPrivate E op) :
    (∃ e, meaning E root t key = .events [.fail e]) ∨
    ∃ h c, meaning E root t key = .events [.ambiguous op, .call h c] := by
  cases hx : E.cfg.value t key with
  | error e => left; exact ⟨e, by unfold meaning; rw [hx]⟩
  | ok x =>
    right
    rw [hasPublic_iff] at h1
    obtain ⟨h, hh⟩ := Option.ne_none_iff_exists'.mp h1
    exact ⟨h, _, (C10_routing E root t key op ps x _ hx ((cleaned_iff x _).mpr rfl) hop).2.1 h hh h2⟩

theorem replay_none_no_ambiguous {root : Str} (hl : 3 ≤ E.level) {evs : List (Ev δ ω)} {c c' : Core δ ω}
    (h : replay E root evs c = (none, c')) (op : Str) : .ambiguous op ∉ evs := by
  intro hm
  obtain ⟨a, b, rfl⟩ := List.append_of_mem hm
  obtain ⟨c1, _, h2⟩ := replay_none_prefix h
  simp only [replay, evStep, notify, if_pos hl] at h2
  cases h2

/-- C10: from level 3 on, no section that reaches an ambiguous option can be parsed. -/
theorem C10_ambiguous_never_succeeds (hl : 3 ≤ E.level) {t : Str} (ht : Relevant E s t) (ha : HasAmbiguous E t) :
    ∀ r, (parseSection E n s true f o).1 ≠ .ok r := by
  intro r hr
  have h : parseSection E n s true f o = (.ok r, (parseSection E n s true f o).2) := Prod.ext hr rfl
  obtain ⟨_, _, _, hrep⟩ := parseSection_ok h
  obtain ⟨evs, htr⟩ := parseTrace_total E s true f
  have hrep := hrep evs htr
  obtain ⟨evD, evR, hD, hD', hR, rfl⟩ := parseTrace_inv htr
  obtain ⟨keys, key, op, ps, hk1, hk2, hop, hp1, hp2⟩ := ha
  have cover : ∀ evk, meaning E s t key = .events evk → ∀ e ∈ evk, e ∈ evD ++ evR := by
    intro evk hm e he
    rcases ht with hr | ⟨hdef, hr⟩
    · exact List.mem_append.mpr (.inr (unrolls_covers_option hR hr hk1 hk2 hm e he))
    · exact List.mem_append.mpr (.inl (unrolls_covers_option (hD ⟨rfl, hdef⟩) hr hk1 hk2 hm e he))
  rcases ambiguous_mem (root := s) (t := t) E hop hp1 hp2 with ⟨e, hm⟩ | ⟨h, c, hm⟩
  · have := cover _ hm (.fail e) (by simp)
    refine (replay_none_no_missing hrep).2 e ?_
    simp only [List.mem_append] at this ⊢
    rcases this with h | h
    · exact .inl (.inl (.inr h))
    · exact .inl (.inr h)
  · have := cover _ hm (.ambiguous op) (by simp)
    refine replay_none_no_ambiguous hl hrep op ?_
    simp only [List.mem_append] at this ⊢
    rcases this with h | h
    · exact .inl (.inl (.inr h))
    · exact .inl (.inr h)

/-- C10: when everything before an ambiguous option goes well, it aborts the parse with AmbiguousHandlerError from
level 3 on, before any of the two methods is called; below level 3 it is noted and the public method is called. -/
theorem C10_ambiguous_event (hs : s ≠ []) {a b : List (Ev δ ω)} {op : Str} (ht : ParseTrace E s i f (a ++ .ambiguous op :: b))
    (hn : E.cfg.sectionNames.length + 3 ≤ n)
    (hd : i = true → E.cfg.hasSection E.defaultName = true → s = E.defaultName ∨ ¬ Reaches E E.defaultName s)
    {c : Core δ ω} (ha : replay E s a { o.toCore with shared := E.emptyShared, checked := setAdd o.checked s } = (none, c)) :
    (3 ≤ E.level → (parseSection E n s i f o).1 = .exc .ambiguousHandler ∧ (parseSection E n s i f o).2.toCore = c) ∧
    (E.level < 3 → ∀ l, (if 0 < E.level ∧ E.silentWarnings = false then
          l = [(⟨.serious, .ambiguousHandler, E.compactWarnings⟩ : Notice)] else l = []) →
        (∀ e, (parseSection E n s i f o).1 = .exc e ↔ (replay E s b { c with out := c.out ++ l }).1 = some e) ∧
        (parseSection E n s i f o).2.toCore = (replay E s b { c with out := c.out ++ l }).2) := by
  obtain ⟨h1, h2, _⟩ := parseSection_replay (o := o) hs ht hn hd
  rw [replay_append, show replay E s a (startCore E s o.toCore) = (none, c) from ha] at h1 h2
  dsimp only at h1 h2
  constructor
  · intro hl
    simp only [replay, evStep, notify, if_pos hl] at h1 h2
    exact ⟨h1, h2⟩
  · intro hl l hcond
    have hstep : evStep E s (.ambiguous op) c = (none, { c with out := c.out ++ l }) := by
      simp only [evStep, notify, if_neg (by omega : ¬ 3 ≤ E.level)]
      split at hcond
      · rename_i hx; rw [if_pos hx, hcond]
      · rename_i hx; rw [if_neg hx, hcond, List.append_nil]
    simp only [replay, hstep] at h1 h2
    refine ⟨fun e => ?_, h2⟩
    rw [h1]
    cases (replay E s b { c with out := c.out ++ l }).1 with
    | none => simp [outcomeV]
    | some e' => simp [outcomeV]

/-- A class with both `handler_set_var` and `_handler_set_var`. -/
def envBoth (lv : Nat) : Env (List Str) Unit :=
  { Example.env with
    level := lv
    priv := fun op => if op = py!"use" then some .use
      else if op = py!"set_var" then some (.user (Example.hook py!"private")) else none }

example : (parseSection (envBoth 3) 12 py!"H" true true Example.o0).1 = .exc .ambiguousHandler ∧
    (parseSection (envBoth 2) 12 py!"H" true true Example.o0).1 = .ok [py!"init", py!"H/only", py!"final"] ∧
    (parseSection (envBoth 2) 12 py!"H" true true Example.o0).2.out = [⟨.serious, .ambiguousHandler, false⟩] := by
  decide +kernel

/-- The words of a key, by computation. -/
theorem words_of {k : Str} {ws : List Str} (h : shlexSplit k = .ok ws) : Words k ws := (C31_split_iff_words k ws).mp h

example : Relevant (envBoth 3) py!"H" py!"H" ∧ HasAmbiguous (envBoth 3) py!"H" := by
  refine ⟨.inl (.refl _), [py!"set_var only"], py!"set_var only", py!"set_var", [py!"only"], rfl, .head _, ?_, ?_, ?_⟩
  · exact ⟨py!"set_var", words_of (by decide +kernel), by decide +kernel, by decide⟩
  · right; right; intro h; cases h
  · intro h; cases h

/-! ### C11 -/

theorem store_iff (E : Env δ ω) (root t key k : Str) (v : Option Str) :
    meaning E root t key = .events [.store k v] ↔
      ∃ x, E.cfg.value t key = .ok x ∧ Cleaned x v ∧ k = strip key ∧ Unclaimed E k := by
  constructor
  · intro h
    unfold meaning at h
    cases hx : E.cfg.value t key with
    | error e => rw [hx] at h; simp at h
    | ok x =>
      rw [hx] at h
      dsimp only at h
      cases hs : shlexSplit (strip key) with
      | error e => rw [hs] at h; simp at h
      | ok ws =>
        rw [hs] at h
        cases ws with
        | nil => simp at h
        | cons w ps =>
          dsimp only at h
          by_cases hw : OpWord w
          · rw [if_pos hw] at h
            split at h
            · rename_i h1 h2
              simp only [Meaning.events.injEq, List.cons.injEq, Ev.store.injEq, and_true] at h
              refine ⟨x, rfl, (cleaned_iff _ _).mpr h.2.symm, h.1.symm, w, ps, ?_, .inr ⟨?_, ?_⟩⟩
              · rw [← h.1]; exact words_of hs
              · rw [hasPublic_iff, h1]; simp
              · unfold HasPrivate; rw [h2]; simp
            · simp at h
            · simp at h
            · simp at h
            · split at h <;> simp at h
          · rw [if_neg hw] at h
            simp only [Meaning.events.injEq, List.cons.injEq, Ev.store.injEq, and_true] at h
            exact ⟨x, rfl, (cleaned_iff _ _).mpr h.2.symm, h.1.symm, w, ps, by rw [← h.1]; exact words_of hs, .inl hw⟩
  · rintro ⟨x, hx, hc, rfl, w, ps, hw, hno⟩
    by_cases how : OpWord w
    · rcases hno with hno | ⟨h1, h2⟩
      · exact absurd how hno
      · exact (C10_routing E root t key (opName w) ps x v hx hc ⟨w, hw, how, rfl⟩).2.2.2.2.2 h1 h2
    · exact C10_not_an_operation E root t key w ps x v hx hc hw how

/-- C11: after a successful first parse of `s`, a key `k` is in the enhanced data of `s` if and only if some section
that matters for `s` has an option with that key, blanks apart, which no handler takes. -/
theorem C11_stored_iff_unclaimed (hfresh : Dict.get? o.data s = none ∨ Dict.get? o.data s = some [])
    (h : parseSection E n s true f o = (.ok r, o')) :
    ∃ d, Dict.get? o'.data s = some d ∧ ∀ k, k ∈ Dict.keys d ↔
      Unclaimed E k ∧ ∃ t keys key, Relevant E s t ∧ E.cfg.optionNames t = some keys ∧ key ∈ keys ∧ Trimmed White key k := by
  obtain ⟨d, hd, hk⟩ := C02_parse_keys hfresh h
  refine ⟨d, hd, fun k => ?_⟩
  rw [hk]
  constructor
  · rintro ⟨t, hrel, keys, key, v, h1, h2, h3⟩
    obtain ⟨x, hx, hc, rfl, hu⟩ := (store_iff E t t key k v).mp h3
    exact ⟨hu, t, keys, key, hrel, h1, h2, (C11_strip _ _).mp rfl⟩
  · rintro ⟨hu, t, keys, key, hrel, h1, h2, h3⟩
    rw [← C11_strip] at h3
    subst h3
    refine ⟨t, hrel, keys, key, ?_⟩
    -- the value can be read, because the parse succeeded
    cases hx : E.cfg.value t key with
    | ok x =>
      exact ⟨x.map fun s => stripQuotes (strip s), h1, h2,
        (store_iff E t t key _ _).mpr ⟨x, hx, (cleaned_iff _ _).mpr rfl, rfl, hu⟩⟩
    | error e =>
      exfalso
      obtain ⟨_, _, _, hrep⟩ := parseSection_ok h
      obtain ⟨evs, htr⟩ := parseTrace_total E s true f
      have hrep := hrep evs htr
      obtain ⟨evD, evR, hD, hD', hR, rfl⟩ := parseTrace_inv htr
      have hm : meaning E s t key = .events [.fail e] := by unfold meaning; rw [hx]
      refine (replay_none_no_missing hrep).2 e ?_
      simp only [List.mem_append]
      rcases hrel with hr | ⟨hdef, hr⟩
      · exact .inl (.inr (unrolls_covers_option hR hr h1 h2 hm _ (.head _)))
      · exact .inl (.inl (.inr (unrolls_covers_option (hD ⟨rfl, hdef⟩) hr h1 h2 hm _ (.head _))))

/-- C11: every value of the enhanced data is the cleaned value of such an option. -/
theorem C11_values_are_cleaned (hfresh : Dict.get? o.data s = none ∨ Dict.get? o.data s = some [])
    (h : parseSection E n s true f o = (.ok r, o')) :
    ∃ d, Dict.get? o'.data s = some d ∧ ∀ k v, Dict.get? d k = some v →
      ∃ t keys key x, Relevant E s t ∧ E.cfg.optionNames t = some keys ∧ key ∈ keys ∧ Trimmed White key k ∧
        E.cfg.value t key = .ok x ∧ Cleaned x v := by
  obtain ⟨d, hd, evs, htr, hl⟩ := C01_parse_resolves hfresh h
  refine ⟨d, hd, fun k v hkv => ?_⟩
  rw [hl.2] at hkv
  have hmem : (k, v) ∈ stores evs := by
    revert hkv
    generalize stores evs = ws
    intro hkv
    induction ws with
    | nil => cases hkv
    | cons p ws ih =>
      obtain ⟨k', v'⟩ := p
      simp only [lastWrite] at hkv
      cases hlw : lastWrite ws k with
      | some v2 => rw [hlw] at hkv; cases hkv; exact .tail _ (ih hlw)
      | none =>
        rw [hlw] at hkv
        dsimp only at hkv
        split at hkv
        · rename_i e; cases hkv; rw [e]; exact .head _
        · cases hkv
  rw [mem_stores] at hmem
  obtain ⟨evD, evR, hD, hD', hR, rfl⟩ := parseTrace_inv htr
  have origin : ∀ a, Origin E s a (.store k v) → ∃ t keys key x, Reaches E a t ∧ E.cfg.optionNames t = some keys ∧ key ∈ keys ∧
      Trimmed White key k ∧ E.cfg.value t key = .ok x ∧ Cleaned x v := by
    intro a ho
    cases ho with
    | option hr hk hm hev he =>
      rename_i t keys key evs
      rcases meaning_cases hev with ⟨e, rfl⟩ | ⟨k', v', rfl⟩ | ⟨_, _, rfl⟩ | ⟨_, _, _, rfl⟩ <;> simp at he
      obtain ⟨rfl, rfl⟩ := he
      obtain ⟨x, hx, hc, rfl, _⟩ := (store_iff E s t key k v).mp hev
      exact ⟨t, keys, key, x, hr, hk, hm, (C11_strip _ _).mp rfl, hx, hc⟩
  simp only [if_true, List.mem_append, List.mem_singleton, reduceCtorEq, or_false, false_or] at hmem
  rcases hmem with hm | hm
  · by_cases hdef : E.cfg.hasSection E.defaultName = true
    · obtain ⟨t, keys, key, x, h1, h2⟩ := origin _ (unrolls_origin (hD ⟨rfl, hdef⟩) _ hm)
      exact ⟨t, keys, key, x, .inr ⟨hdef, h1⟩, h2⟩
    · rw [hD' (by simp [hdef])] at hm
      cases hm
  · obtain ⟨t, keys, key, x, h1, h2⟩ := origin _ (unrolls_origin hR _ hm)
    exact ⟨t, keys, key, x, .inl h1, h2⟩

/-- The enhanced data of the example. -/
example : ∃ d, Dict.get? Example.oA.data py!"A" = some d ∧ Dict.get? d py!"key 1" = some (some py!"v") := ⟨_, by rfl, by rfl⟩

example : Cleaned (some py!"  \"v\"\t") (some py!"v") := (cleaned_iff _ _).mpr (by decide +kernel)

example : Unclaimed Example.env py!"key 1" :=
  ⟨py!"key", [py!"1"], words_of (by decide +kernel), .inr ⟨by
    rintro (h | h | h)
    · cases h
    · cases h
    · exact h rfl, fun h => h rfl⟩⟩

/-- C11: the sections used by a section, for a class whose only `use` is the built-in one: the options whose key
splits into the word `use` and the name. -/
theorem C11_links (hpub : E.pub py!"use" = none) (hpriv : E.priv py!"use" = some .use)
    (honly : ∀ op, E.priv op = some .use → op = py!"use") (t : Str) :
    Links E s t ↔ ∃ keys key x ps, E.cfg.optionNames s = some keys ∧ key ∈ keys ∧ E.cfg.value s key = .ok x ∧
      Words (strip key) (py!"use" :: t :: ps) := by
  constructor
  · rintro ⟨keys, key, h1, h2, h⟩
    refine ⟨keys, key, ?_⟩
    unfold meaning at h
    cases hx : E.cfg.value s key with
    | error e => rw [hx] at h; simp at h
    | ok x =>
      rw [hx] at h
      dsimp only at h
      cases hs : shlexSplit (strip key) with
      | error e => rw [hs] at h; simp at h
      | ok ws =>
        rw [hs] at h
        cases ws with
        | nil => simp at h
        | cons w ps =>
          dsimp only at h
          by_cases hw : OpWord w
          · rw [if_pos hw] at h
            split at h
            · simp at h
            · simp at h
            · simp at h
            · simp at h
            · rename_i e1 e2
              have hu := honly _ e2
              have hwu : w = py!"use" := by
                have := (C10_same_operation w py!"use").mp (by rw [hu]; decide)
                obtain ⟨hl, hj⟩ := this
                match w, hl, hj with
                | [a, b, c], _, hj =>
                  have h0 := hj 0 (by simp) (by simp)
                  have h1 := hj 1 (by simp) (by simp)
                  have h2 := hj 2 (by simp) (by simp)
                  simp at h0 h1 h2
                  simp [h0, h1, h2]
              cases ps with
              | nil => simp at h
              | cons t' ps =>
                simp at h
                subst h; subst hwu
                exact ⟨x, ps, h1, h2, rfl, words_of hs⟩
          · rw [if_neg hw] at h; simp at h
  · rintro ⟨keys, key, x, ps, h1, h2, hx, hw⟩
    refine ⟨keys, key, h1, h2, ?_⟩
    have hop : Operates (strip key) py!"use" (t :: ps) := ⟨py!"use", hw, by decide +kernel, by decide⟩
    have hnp : ¬ HasPublic E py!"use" := by
      rintro (h | h | h)
      · cases h
      · cases h
      · exact h hpub
    exact (C10_routing E s s key py!"use" (t :: ps) x _ hx ((cleaned_iff x _).mpr rfl) hop).2.2.2.1 t ps hnp hpriv rfl

example : Links Example.env py!"B" py!"C" :=
  (C11_links rfl rfl (fun op h => by
    by_cases e : op = py!"use"
    · exact e
    · simp [Example.env, e] at h) _).mpr
    ⟨_, py!"use 'C'", some [], [], rfl, .head _, by decide +kernel, words_of (by decide +kernel)⟩

end CPE.Props
