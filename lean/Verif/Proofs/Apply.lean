import Verif.Proofs.SetEnvironment
import Verif.Proofs.Literal
import Verif.Props.EnvVars
/-
Generated commands, their execution, and `apply` (wip/setenvironment).
-/
namespace CPE.SetEnv
open CPE.Spec CPE.SetEnv.Spec

/-! ### Generated commands -/

theorem genAction_pyEnvvar (E : Env Shared Actions) {a : Action} {ws : List Str} (h : EnvvarWords a ws)
    (w : World Shared Actions) : genAction E py!"python" a w = (.ok (pythonCommand py!"envvar_op" ws), w) := by
  cases h with
  | unset => rfl
  | two ho hu =>
    simp only [opNames, List.mem_cons, List.not_mem_nil, or_false] at ho
    rcases ho with rfl | rfl | rfl | rfl | rfl | rfl | rfl | rfl | rfl
    all_goals first | rfl | exact absurd rfl hu

theorem genAction_shEnvvar (E : Env Shared Actions) {a : Action} {op : Str} {ws : List Str} (h : EnvvarWords a (op :: ws))
    (w : World Shared Actions) : genAction E py!"bash" a w =
      (.ok (joinStr py!" " (py!"envvar_op" :: op :: ws.map fun w => py!"\"" ++ w ++ py!"\"")), w) := by
  cases h with
  | unset => rfl
  | two ho hu =>
    simp only [opNames, List.mem_cons, List.not_mem_nil, or_false] at ho
    rcases ho with rfl | rfl | rfl | rfl | rfl | rfl | rfl | rfl | rfl
    all_goals first | rfl | exact absurd rfl hu

theorem genAction_pyModule (E : Env Shared Actions) {a : Action} {ws : List Str} (h : ModuleWords a ws)
    (w : World Shared Actions) : genAction E py!"python" a w = (.ok (pythonCommand py!"ModuleHelper.module" ws), w) := by
  cases h with
  | @loadVersion n v hv =>
    cases v with
    | nil => exact absurd rfl hv
    | cons c v => rfl
  | _ => rfl

theorem genAction_shModule (E : Env Shared Actions) {a : Action} {ws : List Str} (h : ModuleWords a ws)
    (w : World Shared Actions) : genAction E py!"bash" a w = (.ok (joinStr py!" " (py!"module" :: ws)), w) := by
  cases h with
  | @loadVersion n v hv =>
    cases v with
    | nil => exact absurd rfl hv
    | cons c v => rfl
  | _ => rfl

/-- The line of an action is what the generator returns. -/
theorem genAction_line (E : Env Shared Actions) {interp : Str} {a : Action} {l : Str} (h : CommandLine interp a l)
    (w : World Shared Actions) : genAction E interp a w = (.ok l, w) := by
  cases h with
  | pyEnvvar h => exact genAction_pyEnvvar E h w
  | pyModule h => exact genAction_pyModule E h w
  | shEnvvar h => exact genAction_shEnvvar E h w
  | shModule h => exact genAction_shModule E h w

theorem genAction_incomplete (E : Env Shared Actions) {interp : Str} (hi : interp = py!"bash" ∨ interp = py!"python")
    {a : Action} (h : Incomplete a) (w : World Shared Actions) : genAction E interp a w = (.exc .typeError, w) := by
  cases h with
  | envvar ho hu =>
    simp only [opNames, List.mem_cons, List.not_mem_nil, or_false] at ho
    rcases ho with rfl | rfl | rfl | rfl | rfl | rfl | rfl | rfl | rfl
    all_goals first | exact absurd rfl hu | (rcases hi with rfl | rfl <;> rfl)
  | @load v =>
    rcases v with _ | (_ | ⟨c, v⟩) <;> rcases hi with rfl | rfl <;> rfl
  | @swapValue n => cases n <;> rcases hi with rfl | rfl <;> rfl
  | _ => rcases hi with rfl | rfl <;> rfl

/-! ### Reading a command back -/

theorem EnvvarWords.readable {a : Action} {ws : List Str} (h : EnvvarWords a ws) (hc : Clean a) :
    ∀ w ∈ ws, Readable w := by
  cases h with
  | @unset n v =>
    intro w hw
    rcases List.mem_cons.1 hw with rfl | hw
    · refine ⟨?_, ?_, ?_, ?_, ?_⟩ <;> decide
    · rw [List.mem_singleton.1 hw]; exact hc.1
  | @two op n v ho hu =>
    intro w hw
    rcases List.mem_cons.1 hw with rfl | hw
    · simp only [opNames, List.mem_cons, List.not_mem_nil, or_false] at ho
      rcases ho with rfl | rfl | rfl | rfl | rfl | rfl | rfl | rfl | rfl <;>
        (refine ⟨?_, ?_, ?_, ?_, ?_⟩ <;> decide)
    · rcases List.mem_cons.1 hw with rfl | hw
      · exact hc.1
      · rw [List.mem_singleton.1 hw]; exact hc.2 _ rfl

theorem ModuleWords.readable {a : Action} {ws : List Str} (h : ModuleWords a ws) (hc : Clean a) :
    ∀ w ∈ ws, Readable w := by
  have hk : ∀ w ∈ [py!"purge", py!"use", py!"load", py!"unload", py!"swap"], Readable w := by
    intro w hw
    simp only [List.mem_cons, List.not_mem_nil, or_false] at hw
    rcases hw with rfl | rfl | rfl | rfl | rfl <;> (refine ⟨?_, ?_, ?_, ?_, ?_⟩ <;> decide)
  intro w hw
  cases h with
  | purge => exact hk w (by simp at hw; simp [hw])
  | use =>
    rcases List.mem_cons.1 hw with rfl | hw
    · exact hk _ (by simp)
    · rw [List.mem_singleton.1 hw]; exact hc.2 _ rfl
  | load =>
    rcases List.mem_cons.1 hw with rfl | hw
    · exact hk _ (by simp)
    · rw [List.mem_singleton.1 hw]; exact hc.1 _ rfl
  | loadEmpty =>
    rcases List.mem_cons.1 hw with rfl | hw
    · exact hk _ (by simp)
    · rw [List.mem_singleton.1 hw]; exact hc.1 _ rfl
  | @loadVersion n v hv =>
    rcases List.mem_cons.1 hw with rfl | hw
    · exact hk _ (by simp)
    · rw [List.mem_singleton.1 hw]
      obtain ⟨a1, a2, a3, a4, a5⟩ := hc.1 _ rfl
      obtain ⟨b1, b2, b3, b4, b5⟩ := hc.2 _ rfl
      have : ∀ c, c ∉ n → c ∉ v → c ≠ '/' → c ∉ n ++ py!"/" ++ v := by
        intro c h1 h2 h3 h
        rcases List.mem_append.1 h with h | h
        · rcases List.mem_append.1 h with h | h
          · exact h1 h
          · exact h3 (List.mem_singleton.1 h)
        · exact h2 h
      exact ⟨this _ a1 b1 (by decide), this _ a2 b2 (by decide), this _ a3 b3 (by decide), this _ a4 b4 (by decide),
        this _ a5 b5 (by decide)⟩
  | unload =>
    rcases List.mem_cons.1 hw with rfl | hw
    · exact hk _ (by simp)
    · rw [List.mem_singleton.1 hw]; exact hc.1 _ rfl
  | swap =>
    rcases List.mem_cons.1 hw with rfl | hw
    · exact hk _ (by simp)
    · rcases List.mem_cons.1 hw with rfl | hw
      · exact hc.1 _ rfl
      · rw [List.mem_singleton.1 hw]; exact hc.2 _ rfl

theorem EnvvarWords.ne_nil {a : Action} {ws : List Str} (h : EnvvarWords a ws) : ws ≠ [] := by cases h <;> simp
theorem ModuleWords.ne_nil {a : Action} {ws : List Str} (h : ModuleWords a ws) : ws ≠ [] := by cases h <;> simp

theorem execPython_literals (sys : Sys) {f : Str} (hf : '(' ∉ f) {ws xs : List Str} (hne : ws ≠ []) (h : Literals ws xs) :
    execPython sys (pythonCommand f ws) = callPython sys (f, xs) := by
  unfold execPython
  have := readCall_literals hf hne h []
  rw [List.append_nil] at this
  rw [this]

theorem execPython_erroneous (sys : Sys) {f : Str} (hf : '(' ∉ f) {ws : List Str} (h : Erroneous ws) :
    execPython sys (pythonCommand f ws) = fun e => (.exc (.user py!"SyntaxError"), e) := by
  unfold execPython
  have := readCall_erroneous hf h [] (.inl rfl)
  rw [List.append_nil] at this
  rw [this]
  rfl

/-- The name of an operation stands for itself. -/
theorem op_literal {op : Str} (h : op ∈ opNames) : Literal op op := by
  apply Readable.literal
  simp only [opNames, List.mem_cons, List.not_mem_nil, or_false] at h
  rcases h with rfl | rfl | rfl | rfl | rfl | rfl | rfl | rfl | rfl <;> (refine ⟨?_, ?_, ?_, ?_, ?_⟩ <;> decide)

/-- Texts that can be read back are performed as they are. -/
theorem performs_of_does {sys : Sys} {a : Action} {m : M Environ Int} (h : Does sys a m) (hc : Clean a) : Performs sys a m := by
  cases h with
  | unset h => exact .unset h (Readable.literal (EnvvarWords.readable h hc _ (.tail _ (.head _))))
  | envvar h =>
    have hr := EnvvarWords.readable h hc
    exact .envvar h (Readable.literal (hr _ (.tail _ (.head _)))) (Readable.literal (hr _ (.tail _ (.tail _ (.head _)))))
  | module h => exact .module h (literals_of_readable (ModuleWords.readable h hc))
  | incomplete h => exact .incomplete h

theorem performing_of_program {sys : Sys} {l : List Action} {ms : List (M Environ Int)} (h : Program sys l ms) (hc : ∀ a ∈ l, Clean a) :
    Performing sys l ms := by
  induction h with
  | nil => exact .nil
  | cons h _ ih => exact .cons (performs_of_does h (hc _ (.head _))) (ih fun b hb => hc b (.tail _ hb))

/-! ### apply -/

theorem envvarOp_zero (sys : Sys) {op name value : Str} {env env' : Environ} {r : Int}
    (h : envvarOp sys op name value true env = (.ok r, env')) : r = 0 := by
  have := (Props.C45_others sys op name value true env).2
  rw [h] at this
  rcases this with h | h | h
  · cases h; rfl
  · cases h
  · cases h

/-- What `apply` does with the result of a step. -/
def settle (E : Env Shared Actions) (st : State) : Out Int × Environ → Out Int × State
  | (.exc e, env) => (.exc e, { st with environ := env })
  | (.diverge, env) => (.diverge, { st with environ := env })
  | (.ok r, env) =>
    if r = 0 then (.ok 0, { st with environ := env })
    else if 2 ≤ E.level then (.exc .runtimeError, { st with environ := env })
    else (.ok r, { st with environ := env, obj := { st.obj with out := st.obj.out ++
      (if E.level = 1 ∧ E.silentWarnings = false then [⟨.critical, .runtimeError, E.compactWarnings⟩] else []) } })

theorem fire_critical (E : Env Shared Actions) :
    fireEvent E.level E.silentWarnings E.compactWarnings .critical .runtimeError =
      if 2 ≤ E.level then (.exc .runtimeError, [])
      else (.ok (), if E.level = 1 ∧ E.silentWarnings = false then [⟨.critical, .runtimeError, E.compactWarnings⟩]
        else []) := by
  rw [fireEvent_eq _ _ _ _ _ (by simp)]
  show (if 2 ≤ E.level then _ else _) = _
  split
  · rfl
  · rename_i h
    have : E.level = 0 ∨ E.level = 1 := by omega
    rcases this with h | h
    · simp [h]
    · cases E.silentWarnings <;> simp [h]

theorem applyAction_performs (sys : Sys) (E : Env Shared Actions) {a : Action} {m : M Environ Int} (h : Performs sys a m)
    (st : State) : applyAction sys E a st = settle E st (m st.environ) := by
  have hfire := fire_critical E
  have henv : ∀ {op n v ws}, EnvvarWords (.envvar op n v) ws → execPython sys (pythonCommand py!"envvar_op" ws) = m →
      (∀ r env', m st.environ = (.ok r, env') → r = 0) →
      applyAction sys E (.envvar op n v) st = settle E st (m st.environ) := by
    intro op n v ws hw hm hz
    have hg := genAction_pyEnvvar E hw st.obj.toWorld
    change genEnvvar E op n v py!"python" st.obj.toWorld = _ at hg
    show applyEnvvar sys E op n v st = _
    unfold applyEnvvar
    rw [M.bind_def]
    have h1 : onObj (liftW (genEnvvar E op n v py!"python")) st = (.ok (pythonCommand py!"envvar_op" ws), st) := by
      unfold onObj liftW; dsimp only; rw [hg]
    rw [h1]
    dsimp only
    rw [hm, M.bind_def]
    cases hx : m st.environ with
    | mk x env' =>
      have h2 : onEnv m st = (x, { st with environ := env' }) := by unfold onEnv; rw [hx]
      rw [h2]
      cases x with
      | ok r =>
        have := hz r env' hx
        subst this
        rfl
      | exc e => rfl
      | diverge => rfl
  have hmod : ∀ {op n v ws}, ModuleWords (.module op n v) ws →
      execPython sys (pythonCommand py!"ModuleHelper.module" ws) = m →
      applyAction sys E (.module op n v) st = settle E st (m st.environ) := by
    intro op n v ws hw hm
    have hg := genAction_pyModule E hw st.obj.toWorld
    change genModule E op n v py!"python" st.obj.toWorld = _ at hg
    show applyModule sys E op n v st = _
    unfold applyModule
    rw [M.bind_def]
    have h1 : onObj (liftW (genModule E op n v py!"python")) st =
        (.ok (pythonCommand py!"ModuleHelper.module" ws), st) := by
      unfold onObj liftW; dsimp only; rw [hg]
    rw [h1]
    dsimp only
    rw [hm, M.bind_def]
    cases hx : m st.environ with
    | mk x env' =>
      have h2 : onEnv m st = (x, { st with environ := env' }) := by unfold onEnv; rw [hx]
      rw [h2]
      cases x with
      | ok r =>
        dsimp only
        by_cases hr : r = 0
        · subst hr; rfl
        · rw [if_pos hr]
          unfold settle
          dsimp only
          rw [if_neg hr, M.bind_def]
          unfold onObj liftW ecEvent
          dsimp only
          rw [hfire]
          by_cases hl : 2 ≤ E.level
          · rw [if_pos hl, if_pos hl]
            simp
          · rw [if_neg hl, if_neg hl]
            simp
            rfl
      | exc e => rfl
      | diverge => rfl
  cases h with
  | unset h hn =>
    cases h with
    | unset =>
      exact henv .unset (execPython_literals sys (by decide) (by simp) (.cons (op_literal (by decide)) (.cons hn .nil)))
        fun r env' h => envvarOp_zero sys h
  | envvar h hn hv =>
    cases h with
    | two ho hu =>
      exact henv (.two ho hu) (execPython_literals sys (by decide) (by simp) (.cons (op_literal ho) (.cons hn (.cons hv .nil))))
        fun r env' h => envvarOp_zero sys h
  | module h hx =>
    have hm := execPython_literals sys (f := py!"ModuleHelper.module") (by decide) (ModuleWords.ne_nil h) hx
    cases a with
    | envvar op n v => cases h
    | module op n v => exact hmod h hm
  | erroneous h he =>
    cases h with
    | envvar h =>
      cases a with
      | envvar op n v => exact henv h (execPython_erroneous sys (by decide) he) fun r env' h => by cases h
      | module op n v => cases h
    | module h =>
      cases a with
      | envvar op n v => cases h
      | module op n v => exact hmod h (execPython_erroneous sys (by decide) he)
  | incomplete h =>
    have hg := genAction_incomplete E (.inr rfl) h st.obj.toWorld
    cases a with
    | envvar op n v =>
      change genEnvvar E op n v py!"python" st.obj.toWorld = _ at hg
      have h1 : onObj (liftW (genEnvvar E op n v py!"python")) st = (.exc .typeError, st) := by
        unfold onObj liftW; dsimp only; rw [hg]
      show applyEnvvar sys E op n v st = _
      unfold applyEnvvar
      rw [M.bind_def, h1]
      rfl
    | module op n v =>
      change genModule E op n v py!"python" st.obj.toWorld = _ at hg
      have h1 : onObj (liftW (genModule E op n v py!"python")) st = (.exc .typeError, st) := by
        unfold onObj liftW; dsimp only; rw [hg]
      show applyModule sys E op n v st = _
      unfold applyModule
      rw [M.bind_def, h1]
      rfl

theorem applyLoop_performing (sys : Sys) (E : Env Shared Actions) {l : List Action} {ms : List (M Environ Int)}
    (h : Performing sys l ms) (acc : Int) (st : State) :
    applyLoop sys E l acc st =
      ((runAll E ms acc st.environ).1,
        { obj := { st.obj with out := st.obj.out ++ (runAll E ms acc st.environ).2.2 },
          environ := (runAll E ms acc st.environ).2.1, files := st.files }) := by
  induction h generalizing acc st with
  | nil =>
    unfold applyLoop runAll
    show (Out.ok acc, st) = _
    simp
  | @cons a m l ms hd hp ih =>
    have h1 := applyAction_performs sys E hd st
    unfold applyLoop runAll
    rw [M.bind_def, h1]
    cases hx : m st.environ with
    | mk x env' =>
      unfold settle
      cases x with
      | ok r =>
        dsimp only
        by_cases hr : r = 0
        · subst hr
          rw [if_pos rfl, if_pos rfl]
          dsimp only
          rw [ih]
        · rw [if_neg hr, if_neg hr]
          by_cases hl : 2 ≤ E.level
          · rw [if_pos hl, if_pos hl]; simp
          · rw [if_neg hl, if_neg hl]
            dsimp only
            rw [ih]
            simp
      | exc e => simp
      | diverge => simp

theorem applyLoop_program (sys : Sys) (E : Env Shared Actions) {l : List Action} {ms : List (M Environ Int)}
    (h : Program sys l ms) (hc : ∀ a ∈ l, Clean a) (acc : Int) (st : State) :
    applyLoop sys E l acc st =
      ((runAll E ms acc st.environ).1,
        { obj := { st.obj with out := st.obj.out ++ (runAll E ms acc st.environ).2.2 },
          environ := (runAll E ms acc st.environ).2.1, files := st.files }) :=
  applyLoop_performing sys E (performing_of_program h hc) acc st

/-! ### Every action can be performed in one way -/

theorem yields_does (sys : Sys) {c : HCall} {a : Action} (h : yields c = some a) : ∃ m, Does sys a m := by
  unfold yields at h
  split at h
  · rename_i hop
    split at h
    · rename_i name ps hp
      cases h
      unfold envvarActions at hop
      obtain ⟨op, ho, e⟩ := List.mem_map.1 hop
      rw [← e]
      by_cases hu : op = py!"unset"
      · subst hu
        exact ⟨_, .unset .unset⟩
      · generalize (if py!"envvar_" ++ op = py!"envvar_assert_not_empty" then some (c.value.getD []) else c.value) = v
        cases v with
        | none => exact ⟨_, .incomplete (.envvar ho hu)⟩
        | some v => exact ⟨_, .envvar (.two ho hu)⟩
    · cases h
  · split at h
    · rename_i hop
      cases h
      generalize c.params.head? = n
      generalize c.value = v
      simp only [moduleActions, List.mem_cons, List.not_mem_nil, or_false] at hop
      rcases hop with e | e | e | e | e <;> rw [e]
      · cases n with
        | none => exact ⟨_, .incomplete .load⟩
        | some n =>
          rcases v with _ | (_ | ⟨ch, v⟩)
          · exact ⟨_, .module .load⟩
          · exact ⟨_, .module .loadEmpty⟩
          · exact ⟨_, .module (.loadVersion (by simp))⟩
      · exact ⟨_, .module .purge⟩
      · cases n with
        | none => exact ⟨_, .incomplete .swapName⟩
        | some n => cases v with
          | none => exact ⟨_, .incomplete .swapValue⟩
          | some v => exact ⟨_, .module .swap⟩
      · cases n with
        | none => exact ⟨_, .incomplete .unload⟩
        | some n => exact ⟨_, .module .unload⟩
      · cases v with
        | none => exact ⟨_, .incomplete .use⟩
        | some v => exact ⟨_, .module .use⟩
    · cases h

theorem actionList_program (sys : Sys) {cs : List HCall} {l : List Action} (h : ActionList cs l) :
    ∃ ms, Program sys l ms := by
  induction h with
  | nil => exact ⟨_, .nil⟩
  | skip _ _ ih => exact ih
  | removed _ _ _ _ ih => exact ih
  | kept hy _ _ ih =>
    obtain ⟨m, hm⟩ := yields_does sys hy
    obtain ⟨ms, hms⟩ := ih
    exact ⟨_, .cons hm hms⟩

/-- The argument words of an action are determined, and an action with words lacks nothing. -/
theorem words_det {a : Action} :
    (∀ ws ws', EnvvarWords a ws → EnvvarWords a ws' → ws = ws') ∧
    (∀ ws ws', ModuleWords a ws → ModuleWords a ws' → ws = ws') ∧
    (∀ ws ws', EnvvarWords a ws → ModuleWords a ws' → False) ∧
    (∀ ws, EnvvarWords a ws → Incomplete a → False) ∧
    (∀ ws, ModuleWords a ws → Incomplete a → False) := by
  refine ⟨?_, ?_, ?_, ?_, ?_⟩
  · have key : ∀ {op n v ws}, EnvvarWords (.envvar op n v) ws →
        op = py!"envvar_unset" ∧ ws = [py!"unset", n] ∨
        ∃ o x, op = py!"envvar_" ++ o ∧ o ≠ py!"unset" ∧ v = some x ∧ ws = [o, n, x] := by
      intro op n v ws h
      cases h with
      | unset => exact .inl ⟨rfl, rfl⟩
      | two ho hu => exact .inr ⟨_, _, rfl, hu, rfl, rfl⟩
    intro ws ws' h h'
    cases a with
    | module => cases h
    | envvar op n v =>
      rcases key h with ⟨e, rfl⟩ | ⟨o, x, e, hu, rfl, rfl⟩ <;> rcases key h' with ⟨e', rfl⟩ | ⟨o', x', e', hu', hx, rfl⟩
      · rfl
      · rw [e] at e'
        exact absurd (List.append_cancel_left (as := py!"envvar_") e').symm hu'
      · rw [e'] at e
        exact absurd (List.append_cancel_left (as := py!"envvar_") e).symm hu
      · rw [e] at e'
        cases hx
        rw [List.append_cancel_left e']
  · intro ws ws' h h'
    cases h <;> cases h' <;> first | rfl | contradiction
  · intro ws ws' h h'
    cases h' <;> cases h
  · intro ws h hi
    cases a with
    | module => cases h
    | envvar op n v =>
      generalize hv : (Action.envvar op n v) = b at h hi
      cases hi with
      | @envvar o n' ho hu =>
        cases hv
        generalize hb : (Action.envvar (py!"envvar_" ++ o) n none) = b at h
        cases h with
        | unset =>
          injection hb with h1 _ _
          exact hu (List.append_cancel_left (as := py!"envvar_") (cs := py!"unset") h1)
        | two => injection hb; contradiction
      | _ => cases hv
  · intro ws h hi
    cases h <;> cases hi <;> contradiction

theorem does_det {sys : Sys} {a : Action} {m m' : M Environ Int} (h : Does sys a m) (h' : Does sys a m') : m = m' := by
  obtain ⟨d1, d2, d3, d4, d5⟩ := @words_det a
  cases h with
  | unset h => cases h' with
    | unset h' => cases d1 _ _ h h'; rfl
    | envvar h' => cases d1 _ _ h h'
    | module h' => exact (d3 _ _ h h').elim
    | incomplete h' => exact (d4 _ h h').elim
  | envvar h => cases h' with
    | unset h' => cases d1 _ _ h h'
    | envvar h' => cases d1 _ _ h h'; rfl
    | module h' => exact (d3 _ _ h h').elim
    | incomplete h' => exact (d4 _ h h').elim
  | module h => cases h' with
    | unset h' => exact (d3 _ _ h' h).elim
    | envvar h' => exact (d3 _ _ h' h).elim
    | module h' => cases d2 _ _ h h'; rfl
    | incomplete h' => exact (d5 _ h h').elim
  | incomplete h => cases h' with
    | unset h' => exact (d4 _ h' h).elim
    | envvar h' => exact (d4 _ h' h).elim
    | module h' => exact (d5 _ h' h).elim
    | incomplete h' => rfl

theorem program_det {sys : Sys} {l : List Action} {ms ms' : List (M Environ Int)} (h : Program sys l ms)
    (h' : Program sys l ms') : ms = ms' := by
  induction h generalizing ms' with
  | nil => cases h'; rfl
  | cons hd _ ih =>
    cases h' with
    | cons hd' hp' => rw [does_det hd hd', ih hp']

end CPE.SetEnv
