import Verif.Proofs.Script
import Verif.Props.SetEnvironment
/-
C48: applying the actions of a section. C49: scripts (wip/setenvironment).
-/
namespace CPE.Props
open CPE.Spec CPE.SetEnv CPE.SetEnv.Spec

variable {cfg : Cfg} {st : Settings} {n : Nat} {s : Str}

/-! ### C48 -/

/-- C48: there is exactly one way to perform the action list of a section. -/
theorem C48_program (sys : Sys) {cs : List HCall} {l : List Action} (h : ActionList cs l) :
    ∃ ms, Program sys l ms ∧ ∀ ms', Program sys l ms' → ms' = ms := by
  obtain ⟨ms, hms⟩ := actionList_program sys h
  exact ⟨ms, hms, fun _ h' => program_det h' hms⟩

/-- C48: `apply(s)` looks the section up (parsing it if that has not been done), and then performs the actions in the
list of the section, in order: it returns the largest status, an exception of an action ends it at once, and the
environment is what the actions performed so far have made of it. Nothing else changes but the notices of actions with
a status other than 0. Assumption: the texts in the actions can be read back by Python from a literal in quotes. -/
theorem C48_apply (sys : Sys) (E : Env Shared Actions) (S : State) {x : Out (Dict Str (Option Str))}
    {o₁ : Obj Shared Actions} (hg : edGetItem E n s S.obj = (x, o₁)) (hx : (∃ v, x = .ok v) ∨ x = .exc .keyError)
    {l : List Action} (hl : Dict.get? o₁.self s = some l) {ms : List (M Environ Int)} (hp : Program sys l ms)
    (hc : ∀ a ∈ l, Clean a) :
    SetEnv.apply sys E n s S =
      ((runAll E ms 0 S.environ).1,
        { obj := { o₁ with out := o₁.out ++ (runAll E ms 0 S.environ).2.2 },
          environ := (runAll E ms 0 S.environ).2.1, files := S.files }) := by
  unfold SetEnv.apply
  have h1 : onObj (ignoreKeyError (edGetItem E n s)) S = (.ok (), { S with obj := o₁ }) := by
    unfold onObj ignoreKeyError
    rw [hg]
    rcases hx with ⟨v, rfl⟩ | rfl <;> rfl
  rw [M.bind_def, h1]
  dsimp only
  have h2 : actionsOf s { S with obj := o₁ } = (.ok l, { S with obj := o₁ }) := by
    unfold actionsOf
    rw [M.read_bind, hl]
    rfl
  rw [M.bind_def, h2]
  dsimp only
  rw [applyLoop_program sys E hp hc]

/-- C48: if the section has no list (the file has no such section, or its parse was not finished), KeyError is raised
and the environment is as it was. -/
theorem C48_no_list (sys : Sys) (E : Env Shared Actions) (S : State) {x : Out (Dict Str (Option Str))}
    {o₁ : Obj Shared Actions} (hg : edGetItem E n s S.obj = (x, o₁)) (hx : (∃ v, x = .ok v) ∨ x = .exc .keyError)
    (hl : Dict.get? o₁.self s = none) :
    SetEnv.apply sys E n s S = (.exc .keyError, { S with obj := o₁ }) := by
  unfold SetEnv.apply
  have h1 : onObj (ignoreKeyError (edGetItem E n s)) S = (.ok (), { S with obj := o₁ }) := by
    unfold onObj ignoreKeyError
    rw [hg]
    rcases hx with ⟨v, rfl⟩ | rfl <;> rfl
  rw [M.bind_def, h1]
  dsimp only
  have h2 : actionsOf s { S with obj := o₁ } = (.exc .keyError, { S with obj := o₁ }) := by
    unfold actionsOf
    rw [M.read_bind, hl]
    rfl
  rw [M.bind_def, h2]

/-- C48: any other exception of the look-up is passed on, and the environment is as it was. -/
theorem C48_lookup_raises (sys : Sys) (E : Env Shared Actions) (S : State) {e : PyExc} (he : e ≠ .keyError)
    {o₁ : Obj Shared Actions} (hg : edGetItem E n s S.obj = (.exc e, o₁)) :
    SetEnv.apply sys E n s S = (.exc e, { S with obj := o₁ }) := by
  unfold SetEnv.apply
  have h1 : onObj (ignoreKeyError (edGetItem E n s)) S = (.exc e, { S with obj := o₁ }) := by
    unfold onObj ignoreKeyError
    rw [hg]
    cases e <;> first | rfl | exact absurd rfl he
  rw [M.bind_def, h1]

/-- C48 over histories: after any history of an object on any environment, `apply(s)` either performs, in order, the
actions of the list that the file gives section `s` (see C47), or it raises an exception and leaves the environment
as it was. -/
theorem C48_history (sys : Sys) (hn : NoHookOptions (env cfg st)) (ops : List Op) (environ : Environ)
    (files : Dict Str Str) (S : State)
    (hS : S = Op.run sys (env cfg st) n ops (State.fresh (env cfg st) environ files)) :
    (∃ init cs l ms, HandledOptions (env cfg st) init s cs ∧ ActionList cs l ∧ Program sys l ms ∧
      (init = true ∨ .ed (.parseSection s false true) ∈ ops) ∧
      ((∀ a ∈ l, Clean a) →
        (SetEnv.apply sys (env cfg st) n s S).1 = (runAll (env cfg st) ms 0 S.environ).1 ∧
        (SetEnv.apply sys (env cfg st) n s S).2.environ = (runAll (env cfg st) ms 0 S.environ).2.1)) ∨
    ((∀ i, (SetEnv.apply sys (env cfg st) n s S).1 ≠ .ok i) ∧
      (SetEnv.apply sys (env cfg st) n s S).2.environ = S.environ) := by
  cases hg : edGetItem (env cfg st) n s S.obj with
  | mk x o₁ =>
    by_cases hx : (∃ v, x = .ok v) ∨ x = .exc .keyError
    · cases hl : Dict.get? o₁.self s with
      | none =>
        rw [C48_no_list sys _ S hg hx hl]
        exact .inr ⟨by simp, rfl⟩
      | some l =>
        have hrun : Dict.get? (Op.run sys (env cfg st) n (ops ++ [.ed (.getItem s)])
            (State.fresh (env cfg st) environ files)).obj.self s = some l := by
          have happ : ∀ (a b : List Op) (S0 : State), Op.run sys (env cfg st) n (a ++ b) S0 =
              Op.run sys (env cfg st) n b (Op.run sys (env cfg st) n a S0) := by
            intro a
            induction a with
            | nil => intros; rfl
            | cons op a ih => intro b S0; exact ih b _
          rw [happ, ← hS]
          show Dict.get? ((Op.ed (.getItem s)).exec sys (env cfg st) n S).2.obj.self s = _
          rw [← hl]
          congr 1
          show ((onObj (edGetItem (env cfg st) n s >>= fun r => pure (.opts r)) >>= fun v => pure (Val.ed v)) S).2.obj.self = _
          rw [M.bind_def]
          unfold onObj
          rw [M.bind_def, hg]
          cases x <;> rfl
        obtain ⟨init, cs, h1, h2, h3⟩ := C47_history sys hn _ environ files hrun
        obtain ⟨ms, h4, _⟩ := C48_program sys h2
        refine .inl ⟨init, cs, l, ms, h1, h2, h4, ?_, fun hc => ?_⟩
        · rcases h3 with h3 | h3
          · exact .inl h3
          · rcases List.mem_append.1 h3 with h3 | h3
            · exact .inr h3
            · cases List.mem_singleton.1 h3
        · rw [C48_apply sys _ S hg hx hl h4 hc]
          exact ⟨rfl, rfl⟩
    · refine .inr ?_
      cases x with
      | ok v => exact absurd (.inl ⟨v, rfl⟩) hx
      | exc e =>
        have he : e ≠ .keyError := fun h => hx (.inr (h ▸ rfl))
        rw [C48_lookup_raises sys _ S he hg]
        exact ⟨by simp, rfl⟩
      | diverge =>
        unfold SetEnv.apply
        have h1 : onObj (ignoreKeyError (edGetItem (env cfg st) n s)) S = (.diverge, { S with obj := o₁ }) := by
          unfold onObj ignoreKeyError
          rw [hg]
        rw [M.bind_def, h1]
        exact ⟨by simp, rfl⟩

/-! ### C49 -/

/-- C49: the script of a section is the header (if asked for) and one line per action of its list, in order. The
section is parsed first if it has no list yet; nothing else changes. -/
theorem C49_text (sys : Sys) (E : Env Shared Actions) {S S₁ : State} {interp : Str} {hdr sheb : Bool}
    (hi : interp = py!"bash" ∨ interp = py!"python") (hst : Ready E n s S S₁) {l : List Action} {ls : List Str}
    (hl : Dict.get? S₁.obj.self s = some l) (hls : CommandLines interp l ls) :
    generateScript sys E n s hdr true sheb interp S = (.ok (scriptText sys interp hdr sheb (some ls)), S₁) :=
  generate_ready hi hst hl (bodyLines_lines E hls _) _ ⟨ls, rfl, rfl⟩

/-- C49: without body, the script is the header (or empty), and nothing is parsed. -/
theorem C49_header_only (sys : Sys) (E : Env Shared Actions) {S : State} {interp : Str} {hdr sheb : Bool}
    (hi : interp = py!"bash" ∨ interp = py!"python") :
    generateScript sys E n s hdr false sheb interp S = (.ok (scriptText sys interp hdr sheb none), S) :=
  generate_header hi S

/-- C49: an action that lacks a needed name or value is a TypeError. -/
theorem C49_incomplete (sys : Sys) (E : Env Shared Actions) {S S₁ : State} {interp : Str} {hdr sheb : Bool}
    (hi : interp = py!"bash" ∨ interp = py!"python") (hst : Ready E n s S S₁) {l₁ l₂ : List Action} {a : Action}
    {ls : List Str} (hl : Dict.get? S₁.obj.self s = some (l₁ ++ a :: l₂)) (hls : CommandLines interp l₁ ls)
    (ha : Incomplete a) :
    generateScript sys E n s hdr true sheb interp S = (.exc .typeError, S₁) :=
  generate_ready hi hst hl (bodyLines_incomplete E hi hls ha _) _ rfl

/-- C49: for every action list one of the two holds: each action has its line, or there is a first one that lacks
something. -/
theorem C49_lines_or_incomplete {interp : Str} (hi : interp = py!"bash" ∨ interp = py!"python") {cs : List HCall}
    {l : List Action} (h : ActionList cs l) :
    (∃ ls, CommandLines interp l ls) ∨
      ∃ l₁ a l₂ ls, l = l₁ ++ a :: l₂ ∧ CommandLines interp l₁ ls ∧ Incomplete a := by
  obtain ⟨ms, hms⟩ := actionList_program exampleSys h
  exact program_lines hi hms

/-- C49: the exception of a parse that fails is passed on. -/
theorem C49_parse_raises (sys : Sys) (E : Env Shared Actions) {S : State} {interp : Str} {hdr sheb : Bool}
    (hi : interp = py!"bash" ∨ interp = py!"python") (hl : Dict.get? S.obj.self s = none) {e : PyExc}
    {o' : Obj Shared Actions} (hp : parseSection E n s true true S.obj = (.exc e, o')) :
    generateScript sys E n s hdr true sheb interp S = (.exc e, { S with obj := o' }) :=
  generate_unparsed hi hl hp _ (.inl ⟨e, rfl, rfl⟩)

/-- C49: another interpreter is a SERIOUS event: ValueError from level 3 on, otherwise the script is empty (and no
file is written). -/
theorem C49_interpreter (sys : Sys) (E : Env Shared Actions) {S : State} {interp file : Str} {hdr body sheb : Bool}
    (hi : interp ≠ py!"bash" ∧ interp ≠ py!"python") :
    (3 ≤ E.level → generateScript sys E n s hdr body sheb interp S = (.exc .valueError, S) ∧
      writeScript sys E n file s hdr body sheb interp S = (.exc .valueError, S)) ∧
    (E.level < 3 → ∃ S', generateScript sys E n s hdr body sheb interp S = (.ok [], S') ∧
      writeScript sys E n file s hdr body sheb interp S = (.ok 1, S') ∧
      S' = { S with obj := { S.obj with out := S.obj.out ++
        (if E.level ≠ 0 ∧ E.silentWarnings = false then [⟨.serious, .valueError, E.compactWarnings⟩] else []) } }) := by
  have hf : fireEvent E.level E.silentWarnings E.compactWarnings .serious .valueError =
      if 3 ≤ E.level then (.exc .valueError, [])
      else (.ok (), if E.level ≠ 0 ∧ E.silentWarnings = false then [⟨.serious, .valueError, E.compactWarnings⟩]
        else []) := by
    rw [fireEvent_eq _ _ _ _ _ (by simp)]
    show (if 3 ≤ E.level then _ else _) = _
    split
    · rfl
    · cases E.silentWarnings <;> cases hl : E.level <;> simp
  have hw : writeScript sys E n file s hdr body sheb interp S =
      (do onObj (liftW (ecEvent E .serious .valueError)); pure 1 : M State Int) S := by
    unfold writeScript
    rw [if_pos hi]
  rw [scriptText_bad hi, hw, M.bind_def, M.bind_def]
  unfold onObj liftW ecEvent
  dsimp only
  rw [hf]
  refine ⟨fun h => ?_, fun h => ?_⟩
  · rw [if_pos h]
    simp
  · rw [if_neg (by omega)]
    exact ⟨_, rfl, rfl, rfl⟩

/-- C49: writing a script to a file puts exactly the text that would be returned into that file, and leaves all other
files and the environment alone; if the text cannot be made no file is written. -/
theorem C49_write (sys : Sys) (E : Env Shared Actions) {S S' : State} {interp file : Str} {hdr body sheb : Bool}
    (hi : interp = py!"bash" ∨ interp = py!"python") {x : Out Str}
    (hg : generateScript sys E n s hdr body sheb interp S = (x, S')) :
    (∀ text, x = .ok text → ∃ S'', writeScript sys E n file s hdr body sheb interp S = (.ok 0, S'') ∧
      S''.obj = S'.obj ∧ S''.environ = S.environ ∧ Dict.get? S''.files file = some text ∧
      ∀ f, f ≠ file → Dict.get? S''.files f = Dict.get? S.files f) ∧
    (∀ e, x = .exc e → writeScript sys E n file s hdr body sheb interp S = (.exc e, S') ∧
      S'.environ = S.environ ∧ S'.files = S.files) := by
  have hkeep : S'.environ = S.environ ∧ S'.files = S.files := by
    have := generate_keeps sys E n s hdr body sheb interp S
    rw [hg] at this
    exact this
  have hw : writeScript sys E n file s hdr body sheb interp S =
      (do let text ← generateScript sys E n s hdr body sheb interp
          M.modify fun st => { st with files := Dict.set st.files file text }
          pure 0 : M State Int) S := by
    unfold writeScript
    rw [if_neg (not_bad hi)]
  rw [hw, M.bind_def, hg]
  refine ⟨?_, ?_⟩
  · rintro text rfl
    refine ⟨_, rfl, rfl, hkeep.1, Dict.get?_set_self _ _ _, fun f hf => ?_⟩
    show Dict.get? (Dict.set S'.files file text) f = _
    rw [Dict.get?_set_ne _ _ hf, hkeep.2]
  · rintro e rfl
    exact ⟨rfl, hkeep⟩

/-- C49: running the Python script of a section (its header defines the operations) performs the actions of the list,
in order, whatever their statuses, until one raises. -/
theorem C49_run (sys : Sys) {l : List Action} {ls : List Str} {ms : List (M Environ Int)}
    (hls : CommandLines py!"python" l ls) (hp : Program sys l ms) (hc : ∀ a ∈ l, Clean a) (sheb : Bool) (e : Environ) :
    runScript sys (scriptText sys py!"python" false sheb (some ls)) e = runEach ms e :=
  runScript_text sys hls hp hc sheb e

/-- C49: if `apply(s)` succeeds, then the Python script of the section does to the environment what `apply` does. -/
theorem C49_same_as_apply (sys : Sys) (E : Env Shared Actions) {S S' : State} {i : Int}
    (ha : SetEnv.apply sys E n s S = (.ok i, S')) {l : List Action} {ms : List (M Environ Int)}
    (hl : Dict.get? S'.obj.self s = some l) (hp : Program sys l ms) (hc : ∀ a ∈ l, Clean a) (sheb : Bool) :
    ∃ text, generateScript sys E n s false true sheb py!"python" S' = (.ok text, S') ∧
      runScript sys text S.environ = (.ok (), S'.environ) := by
  cases hg : edGetItem E n s S.obj with
  | mk x o₁ =>
    have hx : (∃ v, x = .ok v) ∨ x = .exc .keyError := by
      cases x with
      | ok v => exact .inl ⟨v, rfl⟩
      | exc e =>
        refine .inr ?_
        by_cases he : e = .keyError
        · rw [he]
        · rw [C48_lookup_raises sys E S he hg] at ha
          cases ha
      | diverge =>
        unfold SetEnv.apply at ha
        have h1 : onObj (ignoreKeyError (edGetItem E n s)) S = (.diverge, { S with obj := o₁ }) := by
          unfold onObj ignoreKeyError
          rw [hg]
        rw [M.bind_def, h1] at ha
        cases ha
    cases hl₁ : Dict.get? o₁.self s with
    | none => rw [C48_no_list sys E S hg hx hl₁] at ha; cases ha
    | some l₁ =>
      have hself : S'.obj.self = o₁.self := by
        have h : KeepsLists (fun self => self = o₁.self) (applyLoop sys E l₁ 0) := keepsLists_applyLoop l₁ 0
        have := h { S with obj := o₁ } rfl
        unfold SetEnv.apply at ha
        have h1 : onObj (ignoreKeyError (edGetItem E n s)) S = (.ok (), { S with obj := o₁ }) := by
          unfold onObj ignoreKeyError
          rw [hg]
          rcases hx with ⟨v, rfl⟩ | rfl <;> rfl
        rw [M.bind_def, h1] at ha
        dsimp only at ha
        have h2 : actionsOf s { S with obj := o₁ } = (.ok l₁, { S with obj := o₁ }) := by
          unfold actionsOf
          rw [M.read_bind, hl₁]
          rfl
        rw [M.bind_def, h2] at ha
        dsimp only at ha
        rw [ha] at this
        exact this
      rw [hself, hl₁] at hl
      cases hl
      rw [C48_apply sys E S hg hx hl₁ hp hc] at ha
      have hall : runAll E ms 0 S.environ = (.ok i, S'.environ, (runAll E ms 0 S.environ).2.2) := by
        have h1 := congrArg Prod.fst ha
        have h2 := congrArg (fun p => p.2.environ) ha
        dsimp only at h1 h2
        rw [← h1, ← h2]
      have hnone : ¬ ∃ l₁ a l₂ ls, l = l₁ ++ a :: l₂ ∧ CommandLines py!"python" l₁ ls ∧ Incomplete a :=
        fun ⟨l₁, a, l₂, ls, e, _, hi⟩ => runAll_incomplete E (e ▸ hp) hi hall
      rcases program_lines (.inr rfl) hp with ⟨ls, hls⟩ | h
      · refine ⟨_, C49_text sys E (.inr rfl) (.inl ⟨?_, rfl⟩) (by rw [hself]; exact hl₁) hls, ?_⟩
        · rw [hself, hl₁]; simp
        · rw [C49_run sys hls hp hc]
          exact runEach_of_runAll E hall
      · exact absurd h hnone

/-- C49 over histories: whatever was done with the object before, a script that is generated lists the actions that
the file gives the section (see C47). -/
theorem C49_history (sys : Sys) (hn : NoHookOptions (env cfg st)) (ops : List Op) (environ : Environ)
    (files : Dict Str Str) {S S' : State}
    (hS : S = Op.run sys (env cfg st) n ops (State.fresh (env cfg st) environ files)) {interp : Str} {hdr sheb : Bool}
    (hi : interp = py!"bash" ∨ interp = py!"python") {text : Str}
    (h : generateScript sys (env cfg st) n s hdr true sheb interp S = (.ok text, S')) :
    ∃ init cs l ls, HandledOptions (env cfg st) init s cs ∧ ActionList cs l ∧ CommandLines interp l ls ∧
      (init = true ∨ .ed (.parseSection s false true) ∈ ops) ∧
      text = scriptText sys interp hdr sheb (some ls) := by
  have main : ∀ {S₁ : State} {l init cs}, Ready (env cfg st) n s S S₁ → Dict.get? S₁.obj.self s = some l →
      HandledOptions (env cfg st) init s cs → ActionList cs l → (init = true ∨ .ed (.parseSection s false true) ∈ ops) →
      ∃ init cs l ls, HandledOptions (env cfg st) init s cs ∧ ActionList cs l ∧ CommandLines interp l ls ∧
      (init = true ∨ .ed (.parseSection s false true) ∈ ops) ∧
      text = scriptText sys interp hdr sheb (some ls) := by
    intro S₁ l init cs hr hl h1 h2 h3
    rcases C49_lines_or_incomplete hi h2 with ⟨ls, hls⟩ | ⟨l₁, a, l₂, ls, rfl, hls, ha⟩
    · rw [C49_text sys _ hi hr hl hls] at h
      cases h
      exact ⟨init, cs, l, ls, h1, h2, hls, h3, rfl⟩
    · rw [C49_incomplete sys _ hi hr hl hls ha] at h
      cases h
  cases hl : Dict.get? S.obj.self s with
  | some l =>
    have hl' := hl
    rw [hS] at hl'
    obtain ⟨init, cs, h1, h2, h3⟩ := C47_history sys hn ops environ files hl'
    exact main (.inl ⟨by rw [hl]; simp, rfl⟩) hl h1 h2 h3
  | none =>
    cases hp : parseSection (env cfg st) n s true true S.obj with
    | mk x o' =>
      cases x with
      | ok r =>
        obtain ⟨cs, l, h1, h2, _, h4, _⟩ := C47_actions hn hp
        exact main (S₁ := { S with obj := o' }) (.inr ⟨hl, r, by rw [hp], by rw [hp]⟩) h4 h1 h2 (.inl rfl)
      | exc e => rw [C49_parse_raises sys _ hi hl hp] at h; cases h
      | diverge => rw [generate_unparsed hi hl hp _ (.inr ⟨rfl, rfl⟩)] at h; cases h

/-! ### Examples -/

/-- The hypotheses of C48_apply are met by a new object: MAIN is parsed and its actions are performed. The swap has
status 1, so the result is 1, with a notice. -/
example :
    let E := env exampleCfg exampleSettings
    let S := State.fresh E exampleEnviron []
    (∃ v, (edGetItem E 9 py!"MAIN" S.obj).1 = .ok v) ∧
    Dict.get? (edGetItem E 9 py!"MAIN" S.obj).2.self py!"MAIN" = some exampleActions ∧
    (SetEnv.apply exampleSys E 9 py!"MAIN" S).1 = .ok 1 ∧
    (SetEnv.apply exampleSys E 9 py!"MAIN" S).2.environ =
      [(py!"HOME", py!"/home/u"), (py!"PATH", py!"/bin:/opt/x:/usr/bin:/opt/x:${WHO}/bin"), (py!"EMPTY", []),
       (py!"LOADED", py!"swap intel intel/19")] ∧
    (SetEnv.apply exampleSys E 9 py!"MAIN" S).2.obj.out = [⟨.critical, .runtimeError, false⟩] := by
  refine ⟨?_, by decide +kernel, by decide +kernel, by decide +kernel, by decide +kernel⟩
  exact ⟨_, (by decide +kernel : (edGetItem (env exampleCfg exampleSettings) 9 py!"MAIN"
    (State.fresh (env exampleCfg exampleSettings) exampleEnviron []).obj).1 = .ok [])⟩

theorem example_program : Program exampleSys exampleActions
    [envvarOp exampleSys py!"set" py!"WHO" py!"me" true, exampleSys.module [py!"load", py!"gcc/4.8"],
     envvarOp exampleSys py!"unset" py!"WHO" [] true, envvarOp exampleSys py!"append" py!"PATH" py!"${WHO}/bin" true,
     exampleSys.module [py!"swap", py!"intel", py!"intel/19"]] :=
  .cons (.envvar (.two (op := py!"set") (by decide) (by decide)))
    (.cons (.module (.loadVersion (n := py!"gcc") (v := py!"4.8") (by decide))) (.cons (.unset .unset)
      (.cons (.envvar (.two (op := py!"append") (by decide) (by decide))) (.cons (.module .swap) .nil))))

theorem example_clean : ∀ a ∈ exampleActions, Clean a := by
  intro a ha
  simp only [exampleActions, List.mem_cons, List.not_mem_nil, or_false] at ha
  rcases ha with rfl | rfl | rfl | rfl | rfl <;> simp [Clean, Readable] <;> decide

theorem example_lines : CommandLines py!"python" exampleActions
    [py!"envvar_op(\"set\",\"WHO\",\"me\")", py!"ModuleHelper.module(\"load\",\"gcc/4.8\")",
     py!"envvar_op(\"unset\",\"WHO\")", py!"envvar_op(\"append\",\"PATH\",\"${WHO}/bin\")",
     py!"ModuleHelper.module(\"swap\",\"intel\",\"intel/19\")"] :=
  .cons (.pyEnvvar (.two (op := py!"set") (by decide) (by decide)))
    (.cons (.pyModule (.loadVersion (n := py!"gcc") (v := py!"4.8") (by decide))) (.cons (.pyEnvvar .unset)
      (.cons (.pyEnvvar (.two (op := py!"append") (by decide) (by decide))) (.cons (.pyModule .swap) .nil))))

/-- C49: the scripts of MAIN after a parse, in both languages. -/
example :
    let E := env exampleCfg exampleSettings
    let S := State.fresh E exampleEnviron []
    (generateScript exampleSys E 9 py!"MAIN" false true true py!"bash" S).1 = .ok
      (py!"#!/usr/bin/env bash\n" ++ banner ++ py!"envvar_op set \"WHO\" \"me\"\nmodule load gcc/4.8\n" ++
        py!"envvar_op unset \"WHO\"\nenvvar_op append \"PATH\" \"${WHO}/bin\"\nmodule swap intel intel/19\n\n\n") ∧
    (generateScript exampleSys E 9 py!"MAIN" true true true py!"python" S).1 = .ok
      (py!"#!/usr/bin/env python3\n# python\n\n" ++ banner ++
        py!"envvar_op(\"set\",\"WHO\",\"me\")\nModuleHelper.module(\"load\",\"gcc/4.8\")\n" ++
        py!"envvar_op(\"unset\",\"WHO\")\nenvvar_op(\"append\",\"PATH\",\"${WHO}/bin\")\n" ++
        py!"ModuleHelper.module(\"swap\",\"intel\",\"intel/19\")\n\n\n") := by
  decide +kernel

/-- C49_incomplete: a module-load without name. C49_interpreter: another interpreter. -/
example :
    let E := env exampleCfg exampleSettings
    let S := State.fresh E exampleEnviron []
    (generateScript exampleSys E 9 py!"BAD" false true true py!"bash" S).1 = .exc .typeError ∧
    (generateScript exampleSys E 9 py!"NONE" false true true py!"bash" S).1 = .exc .keyError ∧
    (generateScript exampleSys E 9 py!"MAIN" false true true py!"zsh" S).1 = .ok [] ∧
    (writeScript exampleSys E 9 py!"f" py!"MAIN" false true true py!"zsh" S).1 = .ok 1 := by
  decide +kernel

/-- C49_same_as_apply: the script of MAIN does to the environment what `apply` does. -/
example : runScript exampleSys
      (scriptText exampleSys py!"python" false true (some
        [py!"envvar_op(\"set\",\"WHO\",\"me\")", py!"ModuleHelper.module(\"load\",\"gcc/4.8\")",
         py!"envvar_op(\"unset\",\"WHO\")", py!"envvar_op(\"append\",\"PATH\",\"${WHO}/bin\")",
         py!"ModuleHelper.module(\"swap\",\"intel\",\"intel/19\")"])) exampleEnviron =
    (.ok (), [(py!"HOME", py!"/home/u"), (py!"PATH", py!"/bin:/opt/x:/usr/bin:/opt/x:${WHO}/bin"), (py!"EMPTY", []),
       (py!"LOADED", py!"swap intel intel/19")]) := by
  decide +kernel

end CPE.Props
