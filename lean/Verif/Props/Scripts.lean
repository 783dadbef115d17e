import Verif.Props.ApplyEnv
import Verif.Props.GenOutput
import Verif.Proofs.Scripts
/-
C65: load-env.sh loads the environment that load_env.py has prepared, or none. C66: gen-config.sh.
-/
namespace CPE.Props
open CPE CPE.Spec CPE.SetEnv CPE.SetEnv.Spec CPE.KW CPE.KW.Spec CPE.KW.Script

section
variable {W : Machine} {s : Shell} {args ws : List Str} {st : Nat} {F : Dict Str Str}

/-- C65: load-env.sh ends a shell that runs it instead of sourcing it, and does nothing in a shell in which an environment has
already been loaded: it returns 1. -/
theorem C65_refused (args : List Str) :
    (W.sourced = false → loadEnv W args s = (.exc (.user py!"exit"), s)) ∧
    (W.sourced = true → s.get py!"LOAD_ENV_INTERACTIVE_MODE" ≠ [] → Solid (s.get py!"LOAD_ENV_INTERACTIVE_MODE") →
      loadEnv W args s = (.ok 1, s)) := by
  refine ⟨fun h => ?_, fun h h1 h2 => ?_⟩
  · unfold loadEnv
    rw [if_pos h]
    rfl
  · unfold loadEnv
    rw [if_neg (by rw [h]; decide), M.read_bind, M.bind_ok (notEmptyTest_ok h2 h1 s), if_pos rfl]
    rfl

/-- C65: without Python 3.6 or later, load-env.sh returns 1 and starts nothing. The exported variables are as they were. The files
that it removes are two in the directory of the user, and those that a variable `env_file` of the calling shell names (or a file
`rc` in the working directory, if there is no such variable). -/
theorem C65_no_python (hfit : Fit W s) (hf : FitFile (s.find py!"env_file")) (args : List Str)
    (hp : W.python s.environ = none ∨ W.python s.environ = some true) :
    ∃ s', loadEnv W args s = (.ok 1, s') ∧ Leaves s s' s.environ [] ∧ Tidy s' ∧
      Removed s.files s'.files (Gone (s.get py!"USER") (s.find py!"env_file")) := old_python hfit hf args hp

/-- C65: without arguments load-env.sh shows the help and returns 1. -/
theorem C65_no_arguments (hfit : Fit W s) (hus : Usable W s) (hf : FitFile (s.find py!"env_file"))
    (hr : W.run (helpCall W) s.environ s.files = (st, F)) :
    ∃ s', loadEnv W [] s = (.ok 1, s') ∧ Leaves s s' s.environ [⟨helpCall W, s.environ, s.helper⟩] ∧ Tidy s' ∧
      Removed F s'.files (Gone (s.get py!"USER") (s.find py!"env_file")) := no_arguments hfit hus hf hr

/-- C65: if load_env.py fails, load-env.sh returns its status and loads nothing: the exported variables are as they were, and
load_env.py, called with the words of the arguments, is the only program that has been started. -/
theorem C65_failed (hfit : Fit W s) (hus : Usable W s) (hf : FitFile (s.find py!"env_file")) (hne : args ≠ [])
    (hpat : ∀ a ∈ args, NoPattern a) (hpass : Passed args ws) (hr : W.run (pythonCall W ws) s.environ s.files = (st, F)) (hst : st ≠ 0) :
    ∃ s', loadEnv W args s = (.ok st, s') ∧ Leaves s s' s.environ [⟨pythonCall W ws, s.environ, s.helper⟩] ∧ Tidy s' ∧
      Removed F s'.files (Gone (s.get py!"USER") (s.find py!"env_file")) := by
  obtain ⟨s1, h1, _, h3⟩ := reach hfit hus hne hpat hpass hr
  rw [h3, if_pos hst]
  exact h1.cleanup hfit.unexported rfl hfit.user hf

/-- C65: if load_env.py succeeds but has not written where the script is, nothing is loaded, and load-env.sh returns 0. -/
theorem C65_no_location (hfit : Fit W s) (hus : Usable W s) (hf : FitFile (s.find py!"env_file")) (hne : args ≠ [])
    (hpat : ∀ a ∈ args, NoPattern a) (hpass : Passed args ws) (hr : W.run (pythonCall W ws) s.environ s.files = (0, F))
    (hno : Dict.get? F (location W) = none) :
    ∃ s', loadEnv W args s = (.ok 0, s') ∧ Leaves s s' s.environ [⟨pythonCall W ws, s.environ, s.helper⟩] ∧ Tidy s' ∧
      Removed F s'.files (Gone (s.get py!"USER") (s.find py!"env_file")) := by
  obtain ⟨s1, h1, h2, h3⟩ := reach hfit hus hne hpat hpass hr
  rw [h3, if_neg (by decide), M.bind_ok (modify_ok _ s1)]
  obtain ⟨h4, h5⟩ := ci_step hfit h1 h2 _
  rw [enter_none h4 h5 hus.random hno]
  exact h4.cleanup hfit.unexported rfl hfit.user hf

/-- C65: if the script is not where load_env.py says, nothing is loaded, and load-env.sh returns 1. -/
theorem C65_no_script (hfit : Fit W s) (hus : Usable W s) (hne : args ≠ []) (hpat : ∀ a ∈ args, NoPattern a) (hpass : Passed args ws)
    (hr : W.run (pythonCall W ws) s.environ s.files = (0, F)) {f : Str} (hp : Points F (location W) f) (hno : Dict.get? F f = none) :
    ∃ s', loadEnv W args s = (.ok 1, s') ∧ Leaves s s' s.environ [⟨pythonCall W ws, s.environ, s.helper⟩] ∧ Tidy s' ∧
      Removed F s'.files (Gone (s.get py!"USER") (some f)) := by
  obtain ⟨s1, h1, h2, h3⟩ := reach hfit hus hne hpat hpass hr
  rw [h3, if_neg (by decide), M.bind_ok (modify_ok _ s1)]
  obtain ⟨h4, h5⟩ := ci_step hfit h1 h2 _
  obtain ⟨s2, h6, h7⟩ := enter_some h4 hfit.unexported h5 hus.random hp (isSubstr py!"--ci-mode" (joinStr py!" " args))
  rw [h7, hno, if_neg (by decide)]
  exact h6.cleanupAnd hfit.unexported rfl hfit.user (script_fit hp.1) 1

/-- C65, without `--ci-mode`: the environment is loaded in a new interactive shell, and the calling shell keeps its exported variables.
The new shell starts with lines that load the script, set the prompt, and mark the shell as one in which an environment is loaded, so
that load-env.sh refuses to run in it. When the user leaves the new shell, the generated files are removed and the status is 0; the
file with the path of the script stays. -/
theorem C65_interactive (hfit : Fit W s) (hus : Usable W s) (hne : args ≠ []) (hpat : ∀ a ∈ args, NoPattern a) (hpass : Passed args ws)
    (hr : W.run (pythonCall W ws) s.environ s.files = (0, F)) {f t rc : Str} (hp : Points F (location W) f) (ht : Dict.get? F f = some t)
    (hrc : RcOf f rc) (hci : ¬ AsksForCi args) :
    ∃ ls, ls = loadLines f ++ promptLines ++ [helperLine] ∧
      (∀ st' F', W.run [py!"/bin/bash", py!"--init-file", rc, py!"-i"] s.environ (Dict.set F rc (fileOf ls)) = (st', F') →
        ∃ s', loadEnv W args s = (.ok 0, s') ∧
          Leaves s s' s.environ [⟨pythonCall W ws, s.environ, s.helper⟩, ⟨[py!"/bin/bash", py!"--init-file", rc, py!"-i"], s.environ, s.helper⟩] ∧ Tidy s' ∧
          Removed F' s'.files (Gone (s.get py!"USER") (some f))) ∧
      (∀ env', W.load t s.environ = (.ok (), env') → Hidden env' →
        ∃ env2, Prompted env' env2 ∧ ∀ ps2 F2, Helper W (newShell env2 s.helper (Dict.set F rc (fileOf ls))) (Dict.set F rc (fileOf ls)) ps2 F2 →
          ∃ s', M.forEach ls (rcLine W) (newShell s.environ s.helper (Dict.set F rc (fileOf ls))) = (.ok (), s') ∧
            s'.environ = env2 ∧ s'.started = ps2 ∧ s'.files = F2 ∧ ∀ args', loadEnv W args' s' = (.ok 1, s')) := by
  have hrc' := (rcOf_iff (script_long hp.1.2.2)).1 hrc
  refine ⟨rcStart f ++ rcInteractive, rfl, fun st' F' hb => ?_, fun env' hl hn' => ?_⟩
  · obtain ⟨s1, h1, h2, h3⟩ := reach hfit hus hne hpat hpass hr
    rw [h3, if_neg (by decide), M.bind_ok (modify_ok _ s1)]
    obtain ⟨h4, h5⟩ := ci_step hfit h1 h2 _
    obtain ⟨s2, h6, h7⟩ := enter_some h4 hfit.unexported h5 hus.random hp (isSubstr py!"--ci-mode" (joinStr py!" " args))
    have hc : isSubstr py!"--ci-mode" (joinStr py!" " args) = false := by
      cases hc : isSubstr py!"--ci-mode" (joinStr py!" " args) with
      | false => rfl
      | true => exact absurd ((ci_iff args).1 hc) hci
    rw [h7, ht, if_pos (show (some t).isSome = true from rfl), if_pos hc, ← hrc']
    obtain ⟨s3, e1, h8⟩ := h6.write rc (rcStart f ++ rcInteractive)
    rw [M.bind_ok e1]
    obtain ⟨s4, e2, h9, _⟩ := h8.start hb
    rw [M.bind_ok e2]
    exact h9.cleanup hfit.unexported rfl hfit.user (script_fit hp.1)
  · have hfrc : f ≠ rc := fun hh => script_rc hp.1.2.2 (hrc' ▸ hh.symm)
    obtain ⟨env2, h1, h2⟩ := lines_inside (W := W) s.environ s.helper (Dict.set F rc (fileOf (rcStart f ++ rcInteractive))) hfit.unexported hp.1.1
      ((Dict.get?_set_ne _ _ hfrc).trans ht) hl hn'
    refine ⟨env2, h1, fun ps2 F2 hh => ?_⟩
    obtain ⟨s', e1, e2, e3, e4⟩ := h2 ps2 F2 hh
    refine ⟨s', e1, e2, e3, e4, fun args' => ?_⟩
    have hm : s'.get py!"LOAD_ENV_INTERACTIVE_MODE" = py!"True" := by
      unfold Shell.get Shell.find
      rw [e2, h1.2.1]
      rfl
    exact (C65_refused args').2 hfit.sourced (by rw [hm]; decide) (by rw [hm]; unfold Solid; decide)

/-- C65, with `--ci-mode`: the environment is loaded in the calling shell; its exported variables are then what the script has made of
them. The generated files are removed and the status is 0. -/
theorem C65_ci (hfit : Fit W s) (hus : Usable W s) (hne : args ≠ []) (hpat : ∀ a ∈ args, NoPattern a) (hpass : Passed args ws)
    (hr : W.run (pythonCall W ws) s.environ s.files = (0, F)) {f t rc : Str} (hp : Points F (location W) f) (ht : Dict.get? F f = some t)
    (hrc : RcOf f rc) (hci : AsksForCi args) {env' : Environ} (hl : W.load t s.environ = (.ok (), env')) (hn' : Hidden env')
    (hu : Solid ((with_ s env').get py!"USER")) :
    ∃ text, text = fileOf (loadLines f ++ [helperLine]) ∧ ∀ ps2 F2, Helper W (with_ s env') (Dict.set F rc text) ps2 F2 →
      ∃ s', loadEnv W args s = (.ok 0, s') ∧ Leaves s s' env' (⟨pythonCall W ws, s.environ, s.helper⟩ :: ps2) ∧ Tidy s' ∧
        Removed F2 s'.files (Gone ((with_ s env').get py!"USER") (some f)) := by
  have hrc' := (rcOf_iff (script_long hp.1.2.2)).1 hrc
  refine ⟨fileOf (rcStart f ++ [helperCommand]), rfl, fun ps2 F2 hh => ?_⟩
  obtain ⟨s1, h1, h2, h3⟩ := reach hfit hus hne hpat hpass hr
  rw [h3, if_neg (by decide), M.bind_ok (modify_ok _ s1)]
  obtain ⟨h4, h5⟩ := ci_step hfit h1 h2 _
  obtain ⟨s2, h6, h7⟩ := enter_some h4 hfit.unexported h5 hus.random hp (isSubstr py!"--ci-mode" (joinStr py!" " args))
  rw [h7, ht, if_pos (show (some t).isSome = true from rfl), if_neg (by rw [(ci_iff args).2 hci]; decide), ← hrc']
  obtain ⟨s3, e1, h8⟩ := h6.write rc (rcStart f ++ [helperCommand])
  have hfrc : f ≠ rc := fun hh => script_rc hp.1.2.2 (hrc' ▸ hh.symm)
  obtain ⟨s4, e2, h9⟩ := (lines_ci h8 hfit.unexported hp.1.1 ((Dict.get?_set_ne _ _ hfrc).trans ht) hl).1 ps2 F2 rfl hn' hh
  rw [M.bind_ok e1, M.bind_ok e2]
  exact h9.cleanup hn' rfl hu (script_fit hp.1)

/-- C65, with `--ci-mode`, a script that ends the shell (an assertion that fails): nothing is cleaned up, the generated files stay. -/
theorem C65_ci_exit (hfit : Fit W s) (hus : Usable W s) (hne : args ≠ []) (hpat : ∀ a ∈ args, NoPattern a) (hpass : Passed args ws)
    (hr : W.run (pythonCall W ws) s.environ s.files = (0, F)) {f t rc : Str} (hp : Points F (location W) f) (ht : Dict.get? F f = some t)
    (hrc : RcOf f rc) (hci : AsksForCi args) {env' : Environ} {e : PyExc} (hl : W.load t s.environ = (.exc e, env')) :
    ∃ s' text, loadEnv W args s = (.exc e, s') ∧ text = fileOf (loadLines f ++ [helperLine]) ∧ Leaves s s' env' [⟨pythonCall W ws, s.environ, s.helper⟩] ∧
      OnlyChanged F s'.files rc text := by
  have hrc' := (rcOf_iff (script_long hp.1.2.2)).1 hrc
  obtain ⟨s1, h1, h2, h3⟩ := reach hfit hus hne hpat hpass hr
  rw [h3, if_neg (by decide), M.bind_ok (modify_ok _ s1)]
  obtain ⟨h4, h5⟩ := ci_step hfit h1 h2 _
  obtain ⟨s2, h6, h7⟩ := enter_some h4 hfit.unexported h5 hus.random hp (isSubstr py!"--ci-mode" (joinStr py!" " args))
  rw [h7, ht, if_pos (show (some t).isSome = true from rfl), if_neg (by rw [(ci_iff args).2 hci]; decide), ← hrc']
  obtain ⟨s3, e1, h8⟩ := h6.write rc (rcStart f ++ [helperCommand])
  have hfrc : f ≠ rc := fun hh => script_rc hp.1.2.2 (hrc' ▸ hh.symm)
  obtain ⟨s4, e2, e3, e4, e5, e6, e7⟩ := (lines_ci h8 hfit.unexported hp.1.1 ((Dict.get?_set_ne _ _ hfrc).trans ht) hl).2 (by simp)
  rw [M.bind_ok e1, M.bind_def, e2]
  exact ⟨s4, _, rfl, rfl, ⟨e3, e5, e4, e7⟩, e6 ▸ onlyChanged_set ..⟩

/-- C65, the script and the program together: `source load-env.sh --ci-mode ... <build name>` leaves the shell with the environment that
the actions of the environment section make of the one it had, and LOADED_ENV_NAME says which environment that is; or, if the
environment cannot be applied, it returns a status other than 0 and the shell keeps the environment it had. -/
theorem C65_program {S : Site} {tools : Bash.Tools} {b tmp : Str} {f : Bool} (hfit : Fit W s) (hus : Usable W s)
    (hf : FitFile (s.find py!"env_file")) (hne : args ≠ []) (hpat : ∀ a ∈ args, NoPattern a) (hpass : Passed args ws) (hci : AsksForCi args)
    (hh : s.helper = false) (hserve : RunsLoadEnv W (pythonCall W ws) s.environ s.files S b f tmp (location W))
    (hload : W.load = source tools S.sys.bashHeader) (hn : NoHookOptions S.env) (htmp : ScriptPath tmp) (hloc : tmp ≠ location W) (hlocrc : ¬ RcOf tmp (location W))
    (hclean : ∀ q l, EnvironmentIs S.tool b f q → EnvActions S q l → ∀ x ∈ l, Clean x)
    (hport : ∀ q l, EnvironmentIs S.tool b f q → EnvActions S q l → PortableRun S.sys tools s.environ l)
    (hplain : ∀ q, EnvironmentIs S.tool b f q → PlainName q)
    (hkeep : ∀ a, App.main S false tmp none (some (location W)) (App.new b f s.environ s.files) = (.ok (), a) →
      Hidden a.environ ∧ Solid ((with_ s a.environ).get py!"USER")) :
    (∃ a q l ms env' s', App.main S false tmp none (some (location W)) (App.new b f s.environ s.files) = (.ok (), a) ∧ env' = a.environ ∧ EnvironmentIs S.tool b f q ∧ EnvActions S q l ∧ Program S.sys l ms ∧ Goes ms s.environ (.ok ()) env' ∧
      loadEnv W args s = (.ok 0, s') ∧ Leaves s s' (Dict.set env' py!"LOADED_ENV_NAME" q) [⟨pythonCall W ws, s.environ, false⟩] ∧ Tidy s' ∧
      Dict.get? s'.files tmp = none ∧ Dict.get? s'.files (location W) = some tmp) ∨
    ((App.main S false tmp none (some (location W)) (App.new b f s.environ s.files)).1 ≠ .ok () ∧
      ∃ st s', st ≠ 0 ∧ loadEnv W args s = (.ok st, s') ∧ Leaves s s' s.environ [⟨pythonCall W ws, s.environ, false⟩] ∧ Tidy s' ∧
        Removed s.files s'.files (Gone (s.get py!"USER") (s.find py!"env_file"))) := by
  have hm := C61_main (W := S) (b := b) (f := f) (environ := s.environ) (files := s.files) hn hclean tmp none (some (location W))
  obtain ⟨hs1, hs2⟩ := hserve
  cases hrun : W.run (pythonCall W ws) s.environ s.files with
  | mk st F =>
  rw [hrun] at hs1 hs2
  dsimp only at hs1 hs2 hm
  rcases hm with ⟨q, l, ms, ls, env', h1, h2, h3, h4, h5, h6, h7, h8⟩ | ⟨h1, h2, h3⟩
  · refine .inl ?_
    have hst : st = 0 := hs2.2 h6
    subst hst
    rw [← hs1] at h8
    have hF1 : Dict.get? F (location W) = some tmp := (h8 _).1 rfl
    have hF2 : Dict.get? F tmp = some (matchingScript S ls q) :=
      (h8 tmp).2.1 (fun hh => hloc (Option.some.inj hh).symm) (.inl rfl)
    obtain ⟨stem, hstem⟩ := htmp.2.2
    have hsource : W.load (matchingScript S ls q) s.environ = (.ok (), Dict.set env' py!"LOADED_ENV_NAME" q) := by
      rw [hload]
      exact source_matching h5 h3 (hport q l h1 h2) h4 (hplain q h1)
    obtain ⟨hk1, hk2⟩ := hkeep _ (Prod.ext h6 rfl)
    rw [h7] at hk1 hk2
    have hu : (with_ s (Dict.set env' py!"LOADED_ENV_NAME" q)).get py!"USER" = (with_ s env').get py!"USER" := by
      unfold Shell.get Shell.find
      show (match Dict.get? (Dict.set env' py!"LOADED_ENV_NAME" q) py!"USER" with | some v => some v | none => Dict.get? s.vars py!"USER").getD [] = _
      rw [Dict.get?_set_ne _ _ (by decide)]
      rfl
    have hrc : RcOf tmp (stem ++ py!".rc") := ⟨stem ++ py!".", 's', 'h', by rw [hstem]; simp, by simp⟩
    obtain ⟨text, _, hc⟩ := C65_ci hfit hus hne hpat hpass hrun (f := tmp) (t := matchingScript S ls q) (rc := stem ++ py!".rc")
      ⟨htmp, [], by simp, by simpa using hF1⟩ hF2 hrc hci hsource
      (fun x hx => (Dict.get?_set_ne _ _ (by rintro rfl; revert hx; decide)).trans (hk1 x hx)) (by rw [hu]; exact hk2)
    obtain ⟨s', e1, e2, e3, e4⟩ := hc [] _ (.undefined hh)
    rw [hh] at e2
    refine ⟨_, q, l, ms, env', s', Prod.ext h6 rfl, h7.symm, h1, h2, h3, h4, e1, e2, e3, (e4 tmp).1 (.inr (.inr (.inr ⟨tmp, rfl, .inl rfl⟩))), ?_⟩
    have hng : ¬ Gone ((with_ s (Dict.set env' py!"LOADED_ENV_NAME" q)).get py!"USER") (some tmp) (location W) := by
      rintro (hg | hg | ⟨hg, _⟩ | ⟨g, hg, hg' | hg'⟩)
      · exact absurd (congrArg List.head? hg) (by simp [location, userFile])
      · exact absurd (congrArg List.head? hg) (by simp [location, userFile])
      · exact absurd hg (by simp)
      · cases hg; exact hloc hg'.symm
      · cases hg; exact hlocrc hg'
    rw [(e4 _).2 hng, Dict.get?_set_ne _ _ (fun hx : location W = stem ++ py!".rc" => hlocrc (hx ▸ hrc))]
    exact hF1
  · refine .inr ⟨h1 (), ?_⟩
    have hst : st ≠ 0 := fun hst => h1 () (hs2.1 hst)
    obtain ⟨s', e1, e2, e3, e4⟩ := C65_failed hfit hus hf hne hpat hpass hrun hst
    rw [hh] at e2
    rw [hs1, h3] at e4
    exact ⟨st, s', hst, e1, e2, e3, e4⟩

end
/-! ### Examples for load-env.sh -/

/-- A machine on which load_env.py serves the site of the examples for C61; `intel` and `gnu_teko` are build names. -/
def machine0 : Machine where
  sourced := true
  loadDir := py!"/opt/LoadEnv"
  genDir := py!"/opt/GenConfig"
  isDir := fun p => p == py!"/src"
  python := fun _ => some false
  run := fun argv env files =>
    match argv.getLast? with
    | some b =>
      if b = py!"gnu_teko" ∨ b = py!"intel" then
        let r := App.main site0 false py!"/tmp/t.sh" none (some py!".load_matching_env_loc.7") (App.new b false env files)
        (match r.1 with | .ok _ => 0 | _ => 1, r.2.files)
      else (0, files)
    | none => (0, files)
  load := source exampleTools exampleSys.bashHeader
  random := py!"7"

def shell0 : Shell :=
  { environ := exampleEnviron, vars := [(py!"USER", py!"jo"), (py!"mine", py!"1")], ret := none, helper := false,
    files := [(py!"rc", py!"mine"), (py!"/tmp/jo/.ci_mode", py!"")], started := [] }

theorem shell0_fit : Fit machine0 shell0 := ⟨rfl, by unfold Hidden; decide +kernel, by decide +kernel, by unfold Solid; decide +kernel⟩
theorem machine0_usable : Usable machine0 shell0 := ⟨rfl, by unfold Solid; decide +kernel, by unfold Solid; decide +kernel⟩
theorem shell0_file : FitFile (shell0.find py!"env_file") := by
  rw [show shell0.find py!"env_file" = none by decide +kernel]; intro f hf; cases hf

/-- An environment that is already loaded, and a script that is run instead of sourced. -/
example : (loadEnv machine0 [py!"intel"] { shell0 with environ := [(py!"LOAD_ENV_INTERACTIVE_MODE", py!"True")] }).1 = .ok 1 ∧
    (loadEnv { machine0 with sourced := false } [py!"intel"] shell0).1 = .exc (.user py!"exit") := by
  decide +kernel

/-- An old Python, and no arguments: the file `rc` of the user is gone. -/
example :
    let r1 := loadEnv { machine0 with python := fun _ => some true } [py!"intel"] shell0
    let r2 := loadEnv machine0 [] shell0
    r1.1 = .ok 1 ∧ r1.2.environ = exampleEnviron ∧ r1.2.files = [] ∧ r2.1 = .ok 1 ∧ r2.2.files = [] ∧
    r2.2.started.map (·.argv) = [[py!"python3", py!"-E", py!"-s", py!"/opt/LoadEnv/load_env.py", py!"--help"]] := by
  refine ⟨?_, ?_, ?_, ?_, ?_, ?_⟩ <;> decide +kernel

/-- The environment for `intel` cannot be applied: the shell is as it was. -/
example :
    let r := loadEnv machine0 [py!"--ci-mode", py!"intel"] shell0
    r.1 = .ok 1 ∧ r.2.environ = exampleEnviron ∧ r.2.vars = [(py!"USER", py!"jo"), (py!"mine", py!"1"),
      (py!"load_matching_env_loc", py!".load_matching_env_loc.7")] := by
  refine ⟨?_, ?_, ?_⟩ <;> decide +kernel

/-- A program that succeeds and writes nothing; a path to a script that is not there. -/
example :
    (loadEnv machine0 [py!"--list-envs"] shell0).1 = .ok 0 ∧
    (loadEnv machine0 [py!"--x"] { shell0 with files := [(py!".load_matching_env_loc.7", py!"/tmp/q.sh")] }).1 = .ok 1 := by
  refine ⟨?_, ?_⟩ <;> decide +kernel

theorem passed_ci : Passed [py!"--ci-mode", py!"gnu_teko"] [py!"--ci-mode", py!"gnu_teko"] :=
  (passed_iff _ _).2 (by decide +kernel)

theorem asks_ci : AsksForCi [py!"--ci-mode", py!"gnu_teko"] := (ci_iff _).1 (by decide +kernel)

/-- The hypotheses of C65_program are met: the shell gets the environment. -/
example : ∃ s', loadEnv machine0 [py!"--ci-mode", py!"gnu_teko"] shell0 = (.ok 0, s') ∧
    s'.environ = siteEnviron ++ [(py!"LOADED_ENV_NAME", py!"machine-1_gnu-9-openmpi")] := by
  have hserve : RunsLoadEnv machine0 (pythonCall machine0 [py!"--ci-mode", py!"gnu_teko"]) shell0.environ shell0.files site0 py!"gnu_teko" false
      py!"/tmp/t.sh" (location machine0) := ⟨by decide +kernel, by decide +kernel⟩
  have hgo : (App.main site0 false py!"/tmp/t.sh" none (some (location machine0)) (App.new py!"gnu_teko" false shell0.environ shell0.files)).2.environ =
      siteEnviron := by decide +kernel
  rcases C65_program (W := machine0) (s := shell0) (S := site0) (tools := exampleTools) (b := py!"gnu_teko") (f := false)
    (tmp := py!"/tmp/t.sh") shell0_fit machine0_usable shell0_file (by simp) (by unfold NoPattern; decide +kernel) passed_ci asks_ci rfl hserve rfl
    site_noHooks ⟨fun c hc => (Bash.bare_iff c).1 (by revert c; decide +kernel), by decide, ⟨py!"/tmp/t", rfl⟩⟩ (by decide +kernel)
    (fun h => absurd ((rcOf_iff (by decide)).1 h) (by decide +kernel)) (fun q l => site_clean)
    (fun q l hq hl => by
      cases site_only hq
      cases envActions_unique hl site_actions
      exact site_portable)
    (fun q hq => by
      cases site_only hq
      exact fun c hc => (Bash.bare_iff c).1 (by revert c; decide +kernel))
    (fun a ha => by
      rw [ha] at hgo
      rw [show a.environ = siteEnviron from hgo]
      exact ⟨by unfold Hidden; decide +kernel, by unfold Solid; decide +kernel⟩) with ⟨a, q, l, ms, env', s', ha, he, h1, h2, h3, h4, e1, e2, _⟩ | ⟨h1, _⟩
  · refine ⟨s', e1, ?_⟩
    rw [ha] at hgo
    rw [e2.environ, he, show a.environ = siteEnviron from hgo, site_only h1]
    decide +kernel
  · exact absurd (by decide +kernel) h1

/-- The files after the program has been run for `gnu_teko`, and the script. -/
def files1 : Dict Str Str := (machine0.run (pythonCall machine0 [py!"gnu_teko"]) shell0.environ shell0.files).2
def script1 : Str := (Dict.get? files1 py!"/tmp/t.sh").getD []

theorem machine0_run : machine0.run (pythonCall machine0 [py!"gnu_teko"]) shell0.environ shell0.files = (0, files1) := by decide +kernel
theorem machine0_script : Dict.get? files1 py!"/tmp/t.sh" = some script1 := by decide +kernel
theorem machine0_load : machine0.load script1 shell0.environ =
    (.ok (), siteEnviron ++ [(py!"LOADED_ENV_NAME", py!"machine-1_gnu-9-openmpi")]) := by
  refine Prod.ext ?_ ?_ <;> decide +kernel
theorem machine0_where : Dict.get? files1 py!".load_matching_env_loc.7" = some py!"/tmp/t.sh" := by decide +kernel
theorem machine0_points : Points files1 (location machine0) py!"/tmp/t.sh" :=
  ⟨⟨fun c hc => (Bash.bare_iff c).1 (by revert c; decide +kernel), by decide, ⟨py!"/tmp/t", rfl⟩⟩, [], by simp, machine0_where⟩

/-- The hypotheses of C65_interactive are met: the calling shell keeps its environment, and the new one has the other. -/
example : ∃ F ls s' s2, loadEnv machine0 [py!"gnu_teko"] shell0 = (.ok 0, s') ∧ s'.environ = exampleEnviron ∧
    s'.started.map (·.argv) = [[py!"python3", py!"-E", py!"-s", py!"/opt/LoadEnv/load_env.py", py!"--load-matching-env-location",
      py!".load_matching_env_loc.7", py!"gnu_teko"], [py!"/bin/bash", py!"--init-file", py!"/tmp/t.rc", py!"-i"]] ∧
    M.forEach ls (rcLine machine0) (newShell exampleEnviron false (Dict.set F py!"/tmp/t.rc" (fileOf ls))) = (.ok (), s2) ∧
    Dict.get? s2.environ py!"PS1" = some py!"(machine-1_gnu-9-openmpi) $ " ∧ Dict.get? s2.environ py!"ROOT" = some py!"/home/u/sw" ∧
    loadEnv machine0 [py!"intel"] s2 = (.ok 1, s2) := by
  have h4 := machine0_load
  obtain ⟨ls, _, i1, i2⟩ := C65_interactive (W := machine0) (s := shell0) (args := [py!"gnu_teko"]) shell0_fit machine0_usable (by simp)
    (by unfold NoPattern; decide +kernel) ((passed_iff _ _).2 (by decide +kernel)) machine0_run machine0_points machine0_script (rc := py!"/tmp/t.rc")
    ⟨py!"/tmp/t.", 's', 'h', rfl, rfl⟩ (fun h => absurd ((ci_iff _).2 h) (by decide +kernel))
  obtain ⟨s', e1, e2, _⟩ := i1 0 _ rfl
  obtain ⟨env2, h5, h6⟩ := i2 _ h4 (by unfold Hidden; decide +kernel)
  obtain ⟨s2, e3, e4, e5, e6, e7⟩ := h6 [] _ (.undefined rfl)
  refine ⟨files1, ls, s', s2, e1, e2.environ, by rw [e2.started]; rfl, e3, ?_, ?_, e7 _⟩
  · rw [e4, h5.1]; decide +kernel
  · rw [e4, h5.2.2 _ (by decide) (by decide)]; decide +kernel

/-- A script that ends the shell leaves its files. -/
example :
    let r := loadEnv { machine0 with load := fun _ env => (.exc (.user py!"exit"), env) } [py!"--ci-mode", py!"gnu_teko"] shell0
    r.1 = .exc (.user py!"exit") ∧ (Dict.get? r.2.files py!"/tmp/t.sh").isSome = true ∧ (Dict.get? r.2.files py!"/tmp/t.rc").isSome = true := by
  refine ⟨?_, ?_, ?_⟩ <;> decide +kernel

end CPE.Props
