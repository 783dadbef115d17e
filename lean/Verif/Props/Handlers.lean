import Verif.Props.Cycle
/-
C12, C14, C15, C37: handler calls, return codes, failing `use`, shared data.
-/
namespace CPE.Props
open Spec
variable {δ ω : Type} {E : Env δ ω} {n : Nat} {s : Str} {i f : Bool} {o o' : Obj δ ω} {r : δ}

/-! ### C12 -/

/-- C12: in a successful parse the handlers run in unrolling order, `handler_initialize` first and
`handler_finalize` last; the returned shared data and the attributes of the subclass are the fold of
these calls, starting with empty shared data. -/
theorem C12_handlers_in_order (h : parseSection E n s true true o = (.ok r, o')) :
    ∃ evD evR,
      (if E.cfg.hasSection E.defaultName = true then Unrolls E s (.sec [] E.defaultName) evD else evD = []) ∧
      Unrolls E s (.sec [] s) evR ∧
      (r, o'.self) = foldCalls
        ((E.hookInit, hookCall s py!"handler_initialize") :: calls evD ++ calls evR ++
          [(E.hookFinal, hookCall s py!"handler_finalize")]) (E.emptyShared, o.self) := by
  obtain ⟨evs, ht⟩ := parseTrace_total E s true true
  obtain ⟨_, hr, _, hrep⟩ := parseSection_ok h
  have h1 := replay_state E s evs _ _ (hrep evs ht)
  obtain ⟨evD, evR, hD, hD', hR, rfl⟩ := parseTrace_inv ht
  refine ⟨evD, evR, ?_, hR, ?_⟩
  · split
    · rename_i hx; exact hD ⟨rfl, hx⟩
    · rename_i hx; exact hD' (by simp [hx])
  · rw [hr, h1]
    simp [calls_append, calls, startCore]

/-- C12: the same for `initialize=False` / `finalize=False`: the hooks left out are not called, and without
`initialize` DEFAULT is not read either. -/
theorem C12_hooks_are_optional (h : parseSection E n s i f o = (.ok r, o')) :
    ∃ evD evR,
      (if i = true ∧ E.cfg.hasSection E.defaultName = true then Unrolls E s (.sec [] E.defaultName) evD else evD = []) ∧
      Unrolls E s (.sec [] s) evR ∧
      (r, o'.self) = foldCalls
        ((if i then [(E.hookInit, hookCall s py!"handler_initialize")] else []) ++ calls evD ++ calls evR ++
          (if f then [(E.hookFinal, hookCall s py!"handler_finalize")] else [])) (E.emptyShared, o.self) := by
  obtain ⟨evs, ht⟩ := parseTrace_total E s i f
  obtain ⟨_, hr, _, hrep⟩ := parseSection_ok h
  have h1 := replay_state E s evs _ _ (hrep evs ht)
  obtain ⟨evD, evR, hD, hD', hR, rfl⟩ := parseTrace_inv ht
  refine ⟨evD, evR, ?_, hR, ?_⟩
  · split
    · rename_i hx; exact hD hx
    · rename_i hx; exact hD' hx
  · rw [hr, h1]
    cases i <;> cases f <;> simp [calls_append, calls, startCore]

/-- The handlers of the example append marks to the shared list: the order is visible. -/
example : (parseSection Example.env 12 py!"A" true true Example.o0).1 = .ok [py!"init", py!"A/foo", py!"final"] ∧
    (parseSection Example.env 12 py!"A" false false Example.o0).1 = .ok [py!"A/foo"] := ⟨rfl, rfl⟩

/-! ### C14 -/

/-- The state after the body of a handler ran. -/
def afterBody (h : Handler δ ω) (hc : HCall) (c : Core δ ω) : Core δ ω :=
  { c with shared := (h.run hc c.shared c.self).2.1, self := (h.run hc c.shared c.self).2.2 }

/-- What the return value `v` of a decorated handler must do at settings `E`: `some e`: the parse stops with
`e`; `none`: it goes on, after printing the notices `l`. -/
def ReturnPolicy (E : Env δ ω) (v : Ret) (res : Option PyExc) (l : List Notice) : Prop :=
  match v with
  | .notInt => res = some .typeError ∧ l = []
  | .int k =>
    if k = 0 then res = none ∧ l = []
    else if 10 < k then res = some .runtimeError ∧ l = []
    else if E.level = 5 then res = some .runtimeError ∧ l = []
    else res = none ∧ (if 1 ≤ E.level ∧ E.silentWarnings = false then
      l = [⟨.warning, .runtimeError, E.compactWarnings⟩] else l = [])

/-- C14: a handler called after a good start of the parse. Its effects stay in any case; if it raises, the parse
raises that; if it is not decorated its value is ignored; if it is, the value decides. -/
theorem C14_return_codes (hs : s ≠ []) {a b : List (Ev δ ω)} {h : Handler δ ω} {hc : HCall}
    (ht : ParseTrace E s i f (a ++ .call h hc :: b))
    (hn : E.cfg.sectionNames.length + 3 ≤ n) (hlev : E.level ≤ 5)
    (hd : i = true → E.cfg.hasSection E.defaultName = true → s = E.defaultName ∨ ¬ Reaches E E.defaultName s)
    {c : Core δ ω} (ha : replay E s a { o.toCore with shared := E.emptyShared, checked := setAdd o.checked s } = (none, c)) :
    let stops (e : PyExc) := (parseSection E n s i f o).1 = .exc e ∧
      (parseSection E n s i f o).2.toCore = afterBody h hc c
    let goesOn (l : List Notice) :=
      let next : Core δ ω := { afterBody h hc c with out := c.out ++ l }
      (parseSection E n s i f o).2.toCore = (replay E s b next).2 ∧
      ∀ e, (parseSection E n s i f o).1 = .exc e ↔ (replay E s b next).1 = some e
    match (h.run hc c.shared c.self).1 with
    | .error e => stops e
    | .ok v =>
      if h.decorated = true then
        ∃ res l, ReturnPolicy E v res l ∧ (match res with
          | some e => stops e
          | none => goesOn l)
      else goesOn [] := by
  obtain ⟨h1, h2, _⟩ := parseSection_replay (o := o) hs ht hn hd
  rw [replay_append, show replay E s a (startCore E s o.toCore) = (none, c) from ha] at h1 h2
  dsimp only at h1 h2 ⊢
  simp only [replay] at h1 h2
  have stop : ∀ e, evStep E s (.call h hc) c = (some e, afterBody h hc c) →
      (parseSection E n s i f o).1 = .exc e ∧ (parseSection E n s i f o).2.toCore = afterBody h hc c := by
    intro e he
    rw [he] at h1 h2
    exact ⟨h1, h2⟩
  have go : ∀ l, evStep E s (.call h hc) c = (none, { afterBody h hc c with out := c.out ++ l }) →
      (parseSection E n s i f o).2.toCore = (replay E s b { afterBody h hc c with out := c.out ++ l }).2 ∧
      ∀ e, (parseSection E n s i f o).1 = .exc e ↔
        (replay E s b { afterBody h hc c with out := c.out ++ l }).1 = some e := by
    intro l hl
    rw [hl] at h1 h2
    refine ⟨h2, fun e => ?_⟩
    rw [h1]
    dsimp only
    cases (replay E s b { afterBody h hc c with out := c.out ++ l }).1 with
    | none => simp [outcomeV]
    | some e' => simp [outcomeV]
  have nil : ({ afterBody h hc c with out := c.out ++ [] } : Core δ ω) = afterBody h hc c := by
    simp [afterBody]
  cases hv : (h.run hc c.shared c.self).1 with
  | error e =>
    refine stop e ?_
    simp only [evStep, hv, afterBody]
  | ok v =>
    dsimp only
    split
    · rename_i hdec
      have hev : evStep E s (.call h hc) c = onReturn E v (afterBody h hc c) := by
        simp only [evStep, hv, afterBody, if_pos hdec]
      cases v with
      | notInt => exact ⟨some .typeError, [], ⟨rfl, rfl⟩, stop _ (by rw [hev]; rfl)⟩
      | int k =>
        by_cases h0 : k = 0
        · refine ⟨none, [], by simp [ReturnPolicy, h0], go [] ?_⟩
          rw [hev, nil]
          simp [onReturn, h0]
        · by_cases h10 : 10 < k
          · refine ⟨some .runtimeError, [], by simp [ReturnPolicy, h0, h10], stop _ ?_⟩
            rw [hev]
            simp [onReturn, h0, h10]
          · by_cases h5 : E.level = 5
            · refine ⟨some .runtimeError, [], by simp [ReturnPolicy, h0, h10, h5], stop _ ?_⟩
              rw [hev]
              simp [onReturn, h0, h10, notify, h5]
            · by_cases h1' : 1 ≤ E.level ∧ E.silentWarnings = false
              · refine ⟨none, [⟨.warning, .runtimeError, E.compactWarnings⟩], ?_, go _ ?_⟩
                · simp only [ReturnPolicy, if_neg h0, if_neg h10, if_neg h5, if_pos h1']
                  exact ⟨trivial, trivial⟩
                · rw [hev]
                  simp only [onReturn, if_neg h0, notify]
                  rw [if_neg (by omega), if_neg (by omega), if_pos ⟨by omega, h1'.2⟩]
                  rfl
              · refine ⟨none, [], ?_, go _ ?_⟩
                · simp only [ReturnPolicy, if_neg h0, if_neg h10, if_neg h5, if_neg h1']
                  exact ⟨trivial, trivial⟩
                · rw [hev, nil]
                  simp only [onReturn, if_neg h0, notify]
                  rw [if_neg (by omega), if_neg (by omega), if_neg (fun hx => h1' ⟨by omega, hx.2⟩)]
    · rename_i hdec
      refine go [] ?_
      rw [nil]
      simp only [evStep, hv, afterBody, if_neg hdec]

/-- A class of the example whose `handler_set_var` returns `v`. -/
def envRet (v : Ret) (decorated : Bool) (level : Nat) : Env (List Str) Unit :=
  { Example.env with
    level := level
    pub := fun op => if op = py!"set_var" then
      some { decorated := decorated, run := fun _ d w => (.ok v, d ++ [py!"ran"], w) } else none }

/-- The policy seen on section H, whose only option is handled by `handler_set_var`. -/
example :
    (parseSection (envRet (.int 10) true 4) 12 py!"H" true true Example.o0).1 = .ok [py!"init", py!"ran", py!"final"] ∧
    (parseSection (envRet (.int 10) true 5) 12 py!"H" true true Example.o0).1 = .exc .runtimeError ∧
    (parseSection (envRet (.int (-3)) true 4) 12 py!"H" true true Example.o0).2.out =
      [⟨.warning, .runtimeError, false⟩] ∧
    (parseSection (envRet (.int 11) true 0) 12 py!"H" true true Example.o0).1 = .exc .runtimeError ∧
    (parseSection (envRet .notInt true 0) 12 py!"H" true true Example.o0).1 = .exc .typeError ∧
    (parseSection (envRet .notInt false 0) 12 py!"H" true true Example.o0).1 = .ok [py!"init", py!"ran", py!"final"] := by
  refine ⟨rfl, rfl, rfl, rfl, rfl, rfl⟩

/-! ### C15 -/

/-- C15: if a section that matters for `s` is not in the file, no parse of `s` succeeds. -/
theorem C15_missing_never_succeeds {t : Str} (hr : Relevant E s t) (ho : E.cfg.optionNames t = none)
    (n : Nat) (f : Bool) (o : Obj δ ω) (r : δ) : (parseSection E n s true f o).1 ≠ .ok r := by
  intro h
  have h' : parseSection E n s true f o = (.ok r, (parseSection E n s true f o).2) := Prod.ext h rfl
  obtain ⟨evs, ht⟩ := parseTrace_total E s true f
  have hno := (replay_none_no_missing ((parseSection_ok h').2.2.2 evs ht)).1 t
  obtain ⟨evD, evR, hD, _, hR, rfl⟩ := parseTrace_inv ht
  rcases hr with hr | ⟨hdef, hr⟩
  · exact hno (by simp [unrolls_covers_missing hR hr ho])
  · exact hno (by simp [unrolls_covers_missing (hD ⟨rfl, hdef⟩) hr ho])

/-- C15: a missing section (or an option that cannot be read) met after a good start ends the parse with
KeyError (or that error), at every exception level, and leaves what was recorded before. -/
theorem C15_first_failure (hs : s ≠ []) {a b : List (Ev δ ω)} {ev : Ev δ ω} (ht : ParseTrace E s i f (a ++ ev :: b))
    (hn : E.cfg.sectionNames.length + 3 ≤ n)
    (hd : i = true → E.cfg.hasSection E.defaultName = true → s = E.defaultName ∨ ¬ Reaches E E.defaultName s)
    {c : Core δ ω} (ha : replay E s a { o.toCore with shared := E.emptyShared, checked := setAdd o.checked s } = (none, c)) :
    (∀ t, ev = .missing t → (parseSection E n s i f o).1 = .exc .keyError ∧ (parseSection E n s i f o).2.toCore = c) ∧
    (∀ e, ev = .fail e → (parseSection E n s i f o).1 = .exc e ∧ (parseSection E n s i f o).2.toCore = c) := by
  obtain ⟨h1, h2, _⟩ := parseSection_replay (o := o) hs ht hn hd
  rw [replay_append, show replay E s a (startCore E s o.toCore) = (none, c) from ha] at h1 h2
  exact ⟨by rintro t rfl; exact ⟨h1, h2⟩, by rintro e rfl; exact ⟨h1, h2⟩⟩

/-- C15: what a `use` option means: with a parameter, a link to the section named by the first one, whatever
follows; without parameter, IndexError. -/
theorem C15_use_parameters {root key w : Str} {v : Option Str} {params : List Str}
    (hv : E.cfg.value s key = .ok v) (hk : shlexSplit (strip key) = .ok (w :: params)) (hw : OpWord w)
    (huse : opName w = py!"use") (hpub : E.pub py!"use" = none) (hpriv : E.priv py!"use" = some .use) :
    meaning E root s key = match params with
      | [] => .events [.fail .indexError]
      | t :: _ => .link t := by
  have h1 : publicHandler E (opName w) = none := by rw [huse]; exact hpub
  have h2 : E.priv (opName w) = some .use := by rw [huse]; exact hpriv
  cases params with
  | cons t qs => exact meaning_use hv hk hw h1 h2
  | nil =>
    unfold meaning
    rw [hv]
    dsimp only
    rw [hk]
    dsimp only
    rw [if_pos hw, h1, h2]

/-- D uses the section MISSING after `key 4` and before `key 5`: KeyError at every level, `key 4` recorded. -/
example : (parseSection Example.env 12 py!"D" true true Example.o0).1 = .exc .keyError ∧
    (parseSection { Example.env with level := 0 } 12 py!"D" true true Example.o0).1 = .exc .keyError ∧
    Dict.get? (parseSection Example.env 12 py!"D" true true Example.o0).2.data py!"D" =
      some [(py!"base", some py!"0"), (py!"key 1", some py!"dflt"), (py!"key 4", some py!"4")] := ⟨rfl, rfl, rfl⟩

example : Relevant Example.env py!"D" py!"MISSING" ∧ Example.env.cfg.optionNames py!"MISSING" = none :=
  ⟨.inl (.step ⟨[py!"key 4", py!"use MISSING", py!"key 5"], py!"use MISSING", rfl, by decide, rfl⟩ (.refl _)), rfl⟩

example : meaning Example.env py!"D" py!"D" py!"use MISSING" = .link py!"MISSING" ∧
    meaning { Example.env with cfg := { sections := [(py!"S", [(py!"use A B C", none), (py!"use", none)])] } }
      py!"S" py!"S" py!"use A B C" = .link py!"A" ∧
    meaning { Example.env with cfg := { sections := [(py!"S", [(py!"use A B C", none), (py!"use", none)])] } }
      py!"S" py!"S" py!"use" = .events [.fail .indexError] := ⟨rfl, rfl, rfl⟩

/-! ### C37 -/

/-- C37: `parse_section` starts with empty shared data: its outcome and the result it returns do not depend on
the shared data left by earlier parses. -/
theorem C37_shared_data_start_empty (E : Env δ ω) (n : Nat) (s : Str) (i f : Bool) (o : Obj δ ω) (d : δ) :
    (parseSection E n s i f { o with shared := d }).1 = (parseSection E n s i f o).1 ∧
    (s ≠ [] → (parseSection E n s i f { o with shared := d }).2 = (parseSection E n s i f o).2) := by
  by_cases hs : s = []
  · subst hs; exact ⟨rfl, fun h => absurd rfl h⟩
  · have : parseSection E n s i f { o with shared := d } = parseSection E n s i f o := by
      rw [parseSection_apply E n hs, parseSection_apply E n hs]
      rfl
    rw [this]; exact ⟨rfl, fun _ => rfl⟩

/-- C37: a successful `parse_section` returns the shared data it ends with and remembers them; any other outcome
leaves the remembered result unchanged. -/
theorem C37_last_result (E : Env δ ω) (n : Nat) (s : Str) (i f : Bool) (o : Obj δ ω) :
    (∀ r, (parseSection E n s i f o).1 = .ok r →
      r = (parseSection E n s i f o).2.shared ∧ (parseSection E n s i f o).2.lastResult = some r) ∧
    ((∀ r, (parseSection E n s i f o).1 ≠ .ok r) → (parseSection E n s i f o).2.lastResult = o.lastResult) := by
  constructor
  · intro r hr
    obtain ⟨_, h1, h2, _⟩ := parseSection_ok (Prod.ext hr rfl)
    exact ⟨h1, h2⟩
  · intro h
    by_cases hs : s = []
    · subst hs; rfl
    · rw [parseSection_apply E n hs] at h ⊢
      generalize parseR E n s s i f _ = x at h ⊢
      obtain ⟨a, w⟩ := x
      cases a with
      | ok u => exact absurd rfl (h w.shared)
      | exc e => rfl
      | diverge => rfl

/-- C37: the empty name is refused with ValueError and nothing but the log changes. -/
theorem C37_empty_name (E : Env δ ω) (n : Nat) (i f : Bool) (o : Obj δ ω) :
    parseSection E n [] i f o = (.exc .valueError, { o with log := [] }) := rfl

/-- Remembered results over a history: the result of the last successful parse. -/
theorem C37_history (E : Env δ ω) (n : Nat) (calls : List (Str × Bool × Bool)) (o : Obj δ ω) :
    let step := fun (p : Obj δ ω × Option δ) (c : Str × Bool × Bool) =>
      let x := parseSection E n c.1 c.2.1 c.2.2 p.1
      (x.2, match x.1 with | .ok r => some r | _ => p.2)
    (calls.foldl step (o, o.lastResult)).1.lastResult = (calls.foldl step (o, o.lastResult)).2 := by
  have key : ∀ (calls : List (Str × Bool × Bool)) (p : Obj δ ω × Option δ), p.1.lastResult = p.2 →
      (calls.foldl (fun (p : Obj δ ω × Option δ) (c : Str × Bool × Bool) =>
        let x := parseSection E n c.1 c.2.1 c.2.2 p.1
        (x.2, match x.1 with | .ok r => some r | _ => p.2)) p).1.lastResult =
      (calls.foldl (fun (p : Obj δ ω × Option δ) (c : Str × Bool × Bool) =>
        let x := parseSection E n c.1 c.2.1 c.2.2 p.1
        (x.2, match x.1 with | .ok r => some r | _ => p.2)) p).2 := by
    intro calls
    induction calls with
    | nil => exact fun p h => h
    | cons c cs ih =>
      intro p hp
      refine ih _ ?_
      obtain ⟨h1, h2⟩ := C37_last_result E n c.1 c.2.1 c.2.2 p.1
      dsimp only
      cases hx : (parseSection E n c.1 c.2.1 c.2.2 p.1).1 with
      | ok r => exact (h1 r hx).2
      | exc e => rw [h2 (by rw [hx]; exact fun r h => by cases h), hp]
      | diverge => rw [h2 (by rw [hx]; exact fun r h => by cases h), hp]
  exact key calls _ rfl

/-- After a parse of A, a parse of H returns H's own marks only; after a failing parse of D the result of A is
still remembered. -/
example : (parseSection Example.env 12 py!"H" true true Example.oA).1 = .ok [py!"init", py!"H/only", py!"final"] ∧
    (parseSection Example.env 12 py!"D" true true Example.oA).2.lastResult =
      some [py!"init", py!"A/foo", py!"final"] := ⟨rfl, rfl⟩

end CPE.Props
