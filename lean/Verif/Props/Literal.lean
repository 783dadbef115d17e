import Verif.Props.Apply
/-
C75: how Python reads the texts of actions (wip/setenvironment).
-/
namespace CPE.Props
open CPE.Spec CPE.SetEnv CPE.SetEnv.Spec

variable {cfg : Cfg} {st : Settings} {n : Nat} {s : Str}

/-! ### Texts -/

/-- C75: a text has at most one reading: it stands for one text, or it is an error, or it takes its closing quote. -/
theorem C75_one_reading (w : Str) :
    (∀ x y, Literal w x → Literal w y → x = y) ∧ (∀ x, Literal w x → ¬ Broken w ∧ ¬ Dangling w) ∧ (Broken w → ¬ Dangling w) :=
  ⟨fun x y => literal_det w x y, fun _ h => ⟨literal_not_broken h, literal_not_dangling h⟩, broken_not_dangling⟩

/-- C75: every covered text has a reading. -/
theorem C75_every_text {w : Str} (h : Covered w) : (∃ x, Literal w x) ∨ Broken w ∨ Dangling w :=
  literal_cases w.length w (Nat.le_refl _) h.1 h.2.1 h.2.2.1 h.2.2.2

/-- C75: every text can be written: with a backslash before quotes and backslashes, and escapes for line ends and NUL. -/
theorem C75_written (x : Str) : Literal (x.flatMap written) x := by
  induction x with
  | nil => exact .nil
  | cons c x ih =>
    rw [List.flatMap_cons]
    refine Literal.cons (x := [c]) ?_ ih
    unfold written
    by_cases h1 : c = '"'
    · subst h1; exact .one (by decide)
    rw [if_neg h1]
    by_cases h2 : c = '\\'
    · subst h2; exact .one (by decide)
    rw [if_neg h2]
    by_cases h3 : c = '\n'
    · subst h3; exact .one (by decide)
    rw [if_neg h3]
    by_cases h4 : c = '\r'
    · subst h4; exact .one (by decide)
    rw [if_neg h4]
    by_cases h5 : c = Char.ofNat 0
    · subst h5
      rw [if_pos rfl]
      exact .hex (c := 'x') (k := 2) (ds := py!"00") (n := 0) (by decide)
        (.snoc (ds := py!"0") (n := 0) (d := 0) (.snoc (ds := []) (n := 0) (d := 0) .nil ⟨by decide, .inl rfl⟩) ⟨by decide, .inl rfl⟩) rfl (by decide)
    rw [if_neg h5]
    refine .char ?_
    simp only [List.mem_cons, List.not_mem_nil, or_false, not_or]
    exact ⟨h1, h2, h3, h4, h5⟩

/-- C75: a text without quotes, backslashes, line ends and NUL stands for itself. -/
theorem C75_plain {w : Str} (h : Readable w) : Literal w w := Readable.literal h

/-! ### Actions -/

/-- C75: there is at most one way to perform an action. -/
theorem C75_performs_one (sys : Sys) {a : Action} {m m' : M Environ Int} (h : Performs sys a m) (h' : Performs sys a m') : m = m' := by
  have hdets : ∀ ws xs ys, Literals ws xs → Literals ws ys → xs = ys := by
    intro ws xs ys h
    induction h generalizing ys with
    | nil => intro h; cases h; rfl
    | cons h1 _ ih => intro h; cases h with | cons h2 h3 => rw [literal_det _ _ _ h1 h2, ih _ h3]
  obtain ⟨d1, d2, d3, d4, d5⟩ := @words_det a
  -- an action with a call is performed by the call, or not at all
  have key : ∀ {m}, Performs sys a m → (∃ f ws xs, Calls a f ws ∧ Literals ws xs ∧ m = callPython sys (f, xs)) ∨
      (Incomplete a ∧ m = fun e => (.exc .typeError, e)) ∨
      (∃ f ws, Calls a f ws ∧ Erroneous ws ∧ m = fun e => (.exc (.user py!"SyntaxError"), e)) := by
    intro m h
    cases h with
    | unset h hn => exact .inl ⟨_, _, _, .envvar h, .cons (op_literal (by decide)) (.cons hn .nil), rfl⟩
    | @envvar op _ _ _ _ h hn hv =>
      have ho : Literal op op := by
        cases h with
        | two ho hu => exact op_literal ho
      exact .inl ⟨_, _, _, .envvar h, .cons ho (.cons hn (.cons hv .nil)), rfl⟩
    | module h hx => exact .inl ⟨_, _, _, .module h, hx, rfl⟩
    | incomplete h => exact .inr (.inl ⟨h, rfl⟩)
    | erroneous h he => exact .inr (.inr ⟨_, _, h, he, rfl⟩)
  have hin : ∀ {f ws}, Calls a f ws → Incomplete a → False := by
    intro f ws h hi
    cases h with
    | envvar h => exact d4 _ h hi
    | module h => exact d5 _ h hi
  rcases key h with ⟨f, ws, xs, c1, c2, rfl⟩ | ⟨i, rfl⟩ | ⟨f, ws, c1, c2, rfl⟩ <;>
    rcases key h' with ⟨f', ws', xs', c1', c2', rfl⟩ | ⟨i', rfl⟩ | ⟨f', ws', c1', c2', rfl⟩
  · obtain ⟨rfl, rfl⟩ := calls_det c1 c1'; rw [hdets _ _ _ c2 c2']
  · exact (hin c1 i').elim
  · obtain ⟨rfl, rfl⟩ := calls_det c1 c1'; exact absurd c2' (literals_not_erroneous _ _ c2)
  · exact (hin c1' i).elim
  · rfl
  · exact (hin c1' i).elim
  · obtain ⟨rfl, rfl⟩ := calls_det c1 c1'; exact absurd c2 (literals_not_erroneous _ _ c2')
  · exact (hin c1 i').elim
  · rfl

/-- C75: there is a way to perform an action that can be read, an action that cannot, and one that lacks something. -/
theorem C75_performs_some (sys : Sys) {a : Action} (h : Legible a ∨ Illegible a ∨ Incomplete a) : ∃ m, Performs sys a m := by
  rcases h with ⟨f, ws, xs, hc, hx⟩ | ⟨f, ws, hc, he⟩ | h
  · cases hc with
    | envvar h =>
      cases h with
      | unset =>
        cases hx with | cons _ hx => cases hx with | cons hn hx => exact ⟨_, .unset .unset hn⟩
      | two ho hu =>
        cases hx with | cons _ hx => cases hx with | cons hn hx => cases hx with | cons hv hx => exact ⟨_, .envvar (.two ho hu) hn hv⟩
    | module h => exact ⟨_, .module h hx⟩
  · exact ⟨_, .erroneous hc he⟩
  · exact ⟨_, .incomplete h⟩

/-- C75: if the words of a call are covered and none but the last takes its closing quote, the action can be read or
it cannot. -/
theorem C75_legible_or_not {a : Action} {f : Str} {ws : List Str} {w : Str} (hc : Calls a f (ws ++ [w])) (hw : Covered w)
    (hws : ∀ u ∈ ws, Covered u ∧ ¬ Dangling u) : Legible a ∨ Illegible a := by
  have key : ∀ ws : List Str, (∀ u ∈ ws, Covered u ∧ ¬ Dangling u) → (∃ xs, Literals (ws ++ [w]) xs) ∨ Erroneous (ws ++ [w]) := by
    intro ws
    induction ws with
    | nil =>
      intro _
      rcases C75_every_text hw with ⟨x, h⟩ | h | h
      · exact .inl ⟨_, .cons h .nil⟩
      · exact .inr (.broken h)
      · exact .inr (.dangling h)
    | cons u ws ih =>
      intro hu
      rcases C75_every_text (hu u (.head _)).1 with ⟨x, h⟩ | h | h
      · rcases ih fun v hv => hu v (.tail _ hv) with ⟨xs, h'⟩ | h'
        · exact .inl ⟨_, .cons h h'⟩
        · exact .inr (.later h h')
      · exact .inr (.broken h)
      · exact absurd h (hu u (.head _)).2
  rcases key ws hws with ⟨xs, h⟩ | h
  · exact .inl ⟨_, _, _, hc, h⟩
  · exact .inr ⟨_, _, hc, h⟩

/-! ### apply -/

/-- C75: `apply(s)` performs the actions in the list of the section, in order, with the texts that Python reads: the
first one that cannot be read ends it with SyntaxError, after the actions before it have been performed. -/
theorem C75_apply (sys : Sys) (E : Env Shared Actions) (S : State) {x : Out (Dict Str (Option Str))}
    {o₁ : Obj Shared Actions} (hg : edGetItem E n s S.obj = (x, o₁)) (hx : (∃ v, x = .ok v) ∨ x = .exc .keyError)
    {l : List Action} (hl : Dict.get? o₁.self s = some l) {ms : List (M Environ Int)} (hp : Performing sys l ms) :
    SetEnv.apply sys E n s S =
      ((runAll E ms 0 S.environ).1,
        { obj := { o₁ with out := o₁.out ++ (runAll E ms 0 S.environ).2.2 },
          environ := (runAll E ms 0 S.environ).2.1, files := S.files }) := by
  unfold SetEnv.apply
  have h1 : onObj (ignoreKeyError (edGetItem E n s)) S = (.ok (), { S with obj := o₁ }) := by
    unfold onObj ignoreKeyError
    rw [hg]
    rcases hx with ⟨v, rfl⟩ | rfl <;> rfl
  rw [M.bind_def, h1]
  dsimp only
  have h2 : actionsOf s { S with obj := o₁ } = (.ok l, { S with obj := o₁ }) := by
    unfold actionsOf
    rw [M.read_bind, hl]
    rfl
  rw [M.bind_def, h2]
  dsimp only
  rw [applyLoop_performing sys E hp]

/-- C75 over histories: after any history of an object on any environment, `apply(s)` either performs, in order, the
actions that the file gives section `s`, with the texts that Python reads, or it raises an exception and leaves the
environment as it was. -/
theorem C75_history (sys : Sys) (hn : NoHookOptions (env cfg st)) (ops : List Op) (environ : Environ)
    (files : Dict Str Str) (S : State)
    (hS : S = Op.run sys (env cfg st) n ops (State.fresh (env cfg st) environ files)) :
    (∃ init cs l, HandledOptions (env cfg st) init s cs ∧ ActionList cs l ∧
      (init = true ∨ .ed (.parseSection s false true) ∈ ops) ∧
      ∀ ms, Performing sys l ms →
        (SetEnv.apply sys (env cfg st) n s S).1 = (runAll (env cfg st) ms 0 S.environ).1 ∧
        (SetEnv.apply sys (env cfg st) n s S).2.environ = (runAll (env cfg st) ms 0 S.environ).2.1) ∨
    ((∀ i, (SetEnv.apply sys (env cfg st) n s S).1 ≠ .ok i) ∧
      (SetEnv.apply sys (env cfg st) n s S).2.environ = S.environ) := by
  cases hg : edGetItem (env cfg st) n s S.obj with
  | mk x o₁ =>
    by_cases hx : (∃ v, x = .ok v) ∨ x = .exc .keyError
    · cases hl : Dict.get? o₁.self s with
      | none =>
        rw [C48_no_list sys _ S hg hx hl]
        exact .inr ⟨by simp, rfl⟩
      | some l =>
        have hrun : Dict.get? (Op.run sys (env cfg st) n (ops ++ [.ed (.getItem s)])
            (State.fresh (env cfg st) environ files)).obj.self s = some l := by
          have happ : ∀ (a b : List Op) (S0 : State), Op.run sys (env cfg st) n (a ++ b) S0 =
              Op.run sys (env cfg st) n b (Op.run sys (env cfg st) n a S0) := by
            intro a
            induction a with
            | nil => intros; rfl
            | cons op a ih => intro b S0; exact ih b _
          rw [happ, ← hS]
          show Dict.get? ((Op.ed (.getItem s)).exec sys (env cfg st) n S).2.obj.self s = _
          rw [← hl]
          congr 1
          show ((onObj (edGetItem (env cfg st) n s >>= fun r => pure (.opts r)) >>= fun v => pure (Val.ed v)) S).2.obj.self = _
          rw [M.bind_def]
          unfold onObj
          rw [M.bind_def, hg]
          cases x <;> rfl
        obtain ⟨init, cs, h1, h2, h3⟩ := C47_history sys hn _ environ files hrun
        refine .inl ⟨init, cs, l, h1, h2, ?_, fun ms hp => ?_⟩
        · rcases h3 with h3 | h3
          · exact .inl h3
          · rcases List.mem_append.1 h3 with h3 | h3
            · exact .inr h3
            · cases List.mem_singleton.1 h3
        · rw [C75_apply sys _ S hg hx hl hp]
          exact ⟨rfl, rfl⟩
    · refine .inr ?_
      cases x with
      | ok v => exact absurd (.inl ⟨v, rfl⟩) hx
      | exc e =>
        have he : e ≠ .keyError := fun h => hx (.inr (h ▸ rfl))
        rw [C48_lookup_raises sys _ S he hg]
        exact ⟨by simp, rfl⟩
      | diverge =>
        unfold SetEnv.apply
        have h1 : onObj (ignoreKeyError (edGetItem (env cfg st) n s)) S = (.diverge, { S with obj := o₁ }) := by
          unfold onObj ignoreKeyError
          rw [hg]
        rw [M.bind_def, h1]
        exact ⟨by simp, rfl⟩

/-! ### Scripts -/

/-- C75: if all actions can be read, running the Python script performs them in order, with the texts that Python
reads, whatever their statuses, until one raises. -/
theorem C75_script (sys : Sys) {l : List Action} {ls : List Str} {ms : List (M Environ Int)}
    (hls : CommandLines py!"python" l ls) (hp : Performing sys l ms) (hc : ∀ a ∈ l, Legible a) (sheb : Bool) (e : Environ) :
    runScript sys (scriptText sys py!"python" false sheb (some ls)) e = runEach ms e :=
  runScript_legible sys hls hp hc sheb e

/-- C75: if there is an action that cannot be read, running the script is a SyntaxError, and nothing is done, not even
the actions before it (which `apply` performs). -/
theorem C75_script_illegible (sys : Sys) {l₁ l₂ : List Action} {a : Action} {ls : List Str}
    (hls : CommandLines py!"python" (l₁ ++ a :: l₂) ls) (h₁ : ∀ b ∈ l₁, Legible b) (ha : Illegible a) (sheb : Bool) (e : Environ) :
    runScript sys (scriptText sys py!"python" false sheb (some ls)) e = (.exc (.user py!"SyntaxError"), e) :=
  runScript_illegible sys hls h₁ ha sheb e

/-- C75: if `apply(s)` succeeds, the Python script of the section does to the environment what `apply` does, whatever
Python reads in the texts. -/
theorem C75_same_as_apply (sys : Sys) (E : Env Shared Actions) (S : State) {x : Out (Dict Str (Option Str))}
    {o₁ : Obj Shared Actions} (hg : edGetItem E n s S.obj = (x, o₁)) (hx : (∃ v, x = .ok v) ∨ x = .exc .keyError)
    {l : List Action} (hl : Dict.get? o₁.self s = some l) {ms : List (M Environ Int)} (hp : Performing sys l ms) {i : Int} {S' : State}
    (ha : SetEnv.apply sys E n s S = (.ok i, S')) (sheb : Bool) :
    ∃ text, generateScript sys E n s false true sheb py!"python" S' = (.ok text, S') ∧
      runScript sys text S.environ = (.ok (), S'.environ) := by
  have ha' := ha
  rw [C75_apply sys E S hg hx hl hp] at ha
  have hall : runAll E ms 0 S.environ = (.ok i, S'.environ, (runAll E ms 0 S.environ).2.2) := by
    have h1 := congrArg Prod.fst ha
    have h2 := congrArg (fun p => p.2.environ) ha
    dsimp only at h1 h2
    rw [← h1, ← h2]
  have hself : S'.obj.self = o₁.self := by
    have h2 := congrArg (fun p => p.2.obj.self) ha
    exact h2.symm
  have hrun := runEach_of_runAll E hall
  -- no action raised, so all can be read and have a line
  have key : ∀ (l : List Action) (ms : List (M Environ Int)) (e e' : Environ), Performing sys l ms → runEach ms e = (.ok (), e') →
      (∀ a ∈ l, Legible a) ∧ ∃ ls, CommandLines py!"python" l ls := by
    intro l ms e e' hp
    induction hp generalizing e with
    | nil => intro _; exact ⟨fun a h => absurd h List.not_mem_nil, [], .nil⟩
    | @cons a m l ms h _ ih =>
      intro hr
      unfold runEach at hr
      have hm : ∃ r e1, m e = (.ok r, e1) ∧ runEach ms e1 = (.ok (), e') := by
        rcases hm : m e with ⟨r | r | _, e1⟩ <;> rw [hm] at hr
        · exact ⟨_, _, rfl, hr⟩
        · cases hr
        · cases hr
      obtain ⟨r, e1, hm, hr⟩ := hm
      obtain ⟨i1, ls, i2⟩ := ih e1 hr
      have ha : Legible a ∧ ∃ x, CommandLine py!"python" a x := by
        cases h with
        | unset h hn => exact ⟨⟨_, _, _, .envvar h, .cons (op_literal (by decide)) (.cons hn .nil)⟩, _, .pyEnvvar h⟩
        | @envvar op _ _ _ _ h hn hv =>
          have ho : Literal op op := by
            cases h with
            | two ho hu => exact op_literal ho
          exact ⟨⟨_, _, _, .envvar h, .cons ho (.cons hn (.cons hv .nil))⟩, _, .pyEnvvar h⟩
        | module h hx => exact ⟨⟨_, _, _, .module h, hx⟩, _, .pyModule h⟩
        | incomplete h => cases hm
        | erroneous h he => cases hm
      obtain ⟨h1, x, h2⟩ := ha
      refine ⟨?_, _, .cons h2 i2⟩
      intro b hb
      rcases List.mem_cons.1 hb with rfl | hb
      · exact h1
      · exact i1 b hb
  obtain ⟨hleg, ls, hls⟩ := key l ms _ _ hp hrun
  refine ⟨_, C49_text sys E (.inr rfl) (.inl ⟨?_, rfl⟩) (by rw [hself]; exact hl) hls, ?_⟩
  · rw [hself, hl]; simp
  · rw [C75_script sys hls hp hleg]
    exact hrun

/-! ### Examples -/

/-- `C:\new\d` stands for `C:`, a line end, `ew\d`. -/
theorem example_literal : Literal py!"C:\\new\\d" py!"C:\new\\d" :=
  .cons (p := py!"C") (.char (by decide)) (.cons (p := py!":") (.char (by decide)) (.cons (p := py!"\\n") (.one (by decide))
    (.cons (p := py!"e") (.char (by decide)) (.cons (p := py!"w") (.char (by decide)) (.cons (p := py!"\\d") (.unknown (by decide)) .nil)))))

/-- `\x41\101\u00e9` stands for `AAé`. -/
theorem example_numbers : Literal py!"\\x41\\101\\u00e9" py!"AAé" :=
  have d : ∀ b k c, k < b → (py!"0123456789abcdef")[k]? = some c → Digit b c k := fun _ _ _ h1 h2 => ⟨h1, .inl h2⟩
  .cons (p := py!"\\x41") (.hex (c := 'x') (ds := py!"41") (n := 65) (by decide)
      (.snoc (ds := py!"4") (n := 4) (.snoc (ds := []) (n := 0) .nil (d 16 4 '4' (by decide) rfl)) (d 16 1 '1' (by decide) rfl)) rfl (by decide))
    (.cons (p := py!"\\101") (.octal (ds := py!"101") (n := 65)
        (.snoc (ds := py!"10") (n := 8) (.snoc (ds := py!"1") (n := 1) (.snoc (ds := []) (n := 0) .nil (d 8 1 '1' (by decide) rfl))
          (d 8 0 '0' (by decide) rfl)) (d 8 1 '1' (by decide) rfl)) (by decide) (by decide) (.inl rfl))
      (.cons (p := py!"\\u00e9") (.hex (c := 'u') (ds := py!"00e9") (n := 233) (by decide)
        (.snoc (ds := py!"00e") (n := 14) (.snoc (ds := py!"00") (n := 0) (.snoc (ds := py!"0") (n := 0) (.snoc (ds := []) (n := 0) .nil
          (d 16 0 '0' (by decide) rfl)) (d 16 0 '0' (by decide) rfl)) (d 16 14 'e' (by decide) rfl)) (d 16 9 '9' (by decide) rfl)) rfl (by decide)) .nil))

/-- `C:\` takes its closing quote. -/
theorem example_dangling : Dangling py!"C:\\" :=
  .later (p := py!"C") (.char (by decide)) (.later (p := py!":") (.char (by decide)) .here)

/-- A value over two lines is an error. -/
theorem example_broken : Broken py!"a\nb" := .later (p := py!"a") (.char (by decide)) (.here (.lineEnd (by decide)))

/-- The texts of the two examples above are covered. -/
example : Covered py!"C:\\" ∧ Covered py!"a\nb" := by
  have key : ∀ (w : Str) (ds : Str) (c : Char) (k : Nat), (c, k) ∈ hexEscapes → ('\\' :: c :: ds) <:+: w → c ∈ w :=
    fun w ds c k _ h => h.subset (.tail _ (.head _))
  have hx : ∀ (w : Str), 'x' ∉ w → 'u' ∉ w → 'U' ∉ w → ∀ (c : Char) (k : Nat), (c, k) ∈ hexEscapes → c ∉ w := by
    intro w h1 h2 h3 c k h
    simp only [hexEscapes, List.mem_cons, Prod.mk.injEq, List.not_mem_nil, or_false] at h
    rcases h with ⟨rfl, _⟩ | ⟨rfl, _⟩ | ⟨rfl, _⟩ <;> assumption
  refine ⟨⟨by decide, by decide, ?_, ?_⟩, ⟨by decide, by decide, ?_, ?_⟩⟩
  · intro h; exact absurd (h.subset (.tail _ (.head _))) (by decide)
  · intro c k ds n h _ _ _ hi; exact hx py!"C:\\" (by decide) (by decide) (by decide) c k h (key _ _ _ _ h hi)
  · intro h; exact absurd (h.subset (.tail _ (.head _))) (by decide)
  · intro c k ds n h _ _ _ hi; exact hx py!"a\nb" (by decide) (by decide) (by decide) c k h (key _ _ _ _ h hi)

/-- Actions: the second one cannot be read. -/
def winActions : List Action :=
  [.envvar py!"envvar_set" py!"DIR" (some py!"C:\\new\\d"), .envvar py!"envvar_append" py!"DIR" (some py!"C:\\"), .module py!"module_purge" none none]

theorem win_performing : Performing exampleSys winActions
    [envvarOp exampleSys py!"set" py!"DIR" py!"C:\new\\d" true, fun e => (.exc (.user py!"SyntaxError"), e), exampleSys.module [py!"purge"]] :=
  .cons (.envvar (.two (op := py!"set") (by decide) (by decide)) (C75_plain (by refine ⟨?_, ?_, ?_, ?_, ?_⟩ <;> decide)) example_literal)
    (.cons (.erroneous (.envvar (.two (op := py!"append") (by decide) (by decide)))
        (.later (op_literal (by decide)) (.later (C75_plain (by refine ⟨?_, ?_, ?_, ?_, ?_⟩ <;> decide)) (.dangling example_dangling))))
      (.cons (.module .purge (.cons (C75_plain (by refine ⟨?_, ?_, ?_, ?_, ?_⟩ <;> decide)) .nil)) .nil))

theorem win_lines : CommandLines py!"python" winActions
    [py!"envvar_op(\"set\",\"DIR\",\"C:\\new\\d\")", py!"envvar_op(\"append\",\"DIR\",\"C:\\\")", py!"ModuleHelper.module(\"purge\")"] :=
  .cons (.pyEnvvar (.two (op := py!"set") (by decide) (by decide))) (.cons (.pyEnvvar (.two (op := py!"append") (by decide) (by decide)))
    (.cons (.pyModule .purge) .nil))

/-- `apply` performs the first action and stops at the second. The script does nothing. -/
example :
    let E := env exampleCfg exampleSettings
    let S := State.fresh E [] []
    let S : State := { S with obj := { S.obj with self := [(py!"WIN", winActions)] } }
    (applyLoop exampleSys E winActions 0 S).1 = .exc (.user py!"SyntaxError") ∧
    (applyLoop exampleSys E winActions 0 S).2.environ = [(py!"DIR", py!"C:\new\\d")] ∧
    runScript exampleSys (scriptText exampleSys py!"python" false true (some
      [py!"envvar_op(\"set\",\"DIR\",\"C:\\new\\d\")", py!"envvar_op(\"append\",\"DIR\",\"C:\\\")", py!"ModuleHelper.module(\"purge\")"])) [] =
      (.exc (.user py!"SyntaxError"), []) := by
  refine ⟨by decide +kernel, by decide +kernel, ?_⟩
  exact C75_script_illegible exampleSys win_lines (l₁ := [_]) (l₂ := [_])
    (fun b hb => by
      cases List.mem_singleton.1 hb
      exact ⟨_, _, _, .envvar (.two (op := py!"set") (by decide) (by decide)), .cons (op_literal (by decide))
        (.cons (C75_plain (by refine ⟨?_, ?_, ?_, ?_, ?_⟩ <;> decide)) (.cons example_literal .nil))⟩)
    ⟨_, _, .envvar (.two (op := py!"append") (by decide) (by decide)),
      .later (op_literal (by decide)) (.later (C75_plain (by refine ⟨?_, ?_, ?_, ?_, ?_⟩ <;> decide)) (.dangling example_dangling))⟩ true []

/-- A file whose values have backslashes, and what `apply` makes of the first two sections: a text with an escape for a
line end; a path with its backslashes written twice. -/
def winCfg : Cfg :=
  { sections := [(py!"NEW", [(py!"envvar-set DIR", some py!"C:\\new\\d")]), (py!"TWICE", [(py!"envvar-set DIR", some py!"C:\\\\new")]),
      (py!"LAST", [(py!"envvar-set A", some py!"1"), (py!"envvar-set DIR", some py!"C:\\")])] }

example :
    let E := env winCfg exampleSettings
    let S := State.fresh E [] []
    (SetEnv.apply exampleSys E 9 py!"NEW" S).1 = .ok 0 ∧
    (SetEnv.apply exampleSys E 9 py!"NEW" S).2.environ = [(py!"DIR", py!"C:\new\\d")] ∧
    (SetEnv.apply exampleSys E 9 py!"TWICE" S).2.environ = [(py!"DIR", py!"C:\\new")] ∧
    (SetEnv.apply exampleSys E 9 py!"LAST" S).1 = .exc (.user py!"SyntaxError") ∧
    (SetEnv.apply exampleSys E 9 py!"LAST" S).2.environ = [(py!"A", py!"1")] := by
  decide +kernel

end CPE.Props
