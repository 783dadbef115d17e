import Verif.Props.Scripts
import Verif.Proofs.GenScript
/-
C66: gen-config.sh generates the flags, loads the environment and configures with CMake.
-/
namespace CPE.Props
open CPE CPE.Spec CPE.SetEnv CPE.SetEnv.Spec CPE.KW CPE.KW.Spec CPE.KW.Script

section
variable {W : Machine} {s : Shell} {args init ws : List Str} {src : Option Str} {st : Nat} {F : Dict Str Str}

/-- C66: gen-config.sh ends a shell that runs it instead of sourcing it. Without Python 3.6 or later it returns 1 and has done nothing. -/
theorem C66_refused (args : List Str) :
    (W.sourced = false → genConfig W args s = (.exc (.user py!"exit"), s)) ∧
    (W.sourced = true → W.python s.environ = none ∨ W.python s.environ = some true →
      ∃ s', genConfig W args s = (.ok 1, s') ∧ s'.started = s.started ∧ s'.files = s.files ∧ s'.helper = s.helper ∧ s'.ret = s.ret ∧
        s'.find py!"python_too_old" = none ∧ ∀ x, x ≠ py!"python_too_old" → s'.find x = s.find x) := by
  refine ⟨fun h => ?_, fun h hp => ?_⟩
  · unfold genConfig
    rw [if_pos h]
    rfl
  · unfold genConfig
    rw [if_neg (by rw [h]; decide), M.read_bind]
    have hun : ∀ s1 : Shell, s1.started = s.started → s1.files = s.files → s1.helper = s.helper → s1.ret = s.ret →
        (∀ x, x ≠ py!"python_too_old" → s1.find x = s.find x) →
        ∃ s', (M.modify (Shell.unset [py!"python_too_old"]) >>= fun _ => (pure 1 : M Shell Nat)) s1 = (.ok 1, s') ∧ s'.started = s.started ∧
          s'.files = s.files ∧ s'.helper = s.helper ∧ s'.ret = s.ret ∧
          s'.find py!"python_too_old" = none ∧ ∀ x, x ≠ py!"python_too_old" → s'.find x = s.find x := by
      intro s1 h1 h2 h3 h4 h5
      obtain ⟨u1, u2, u3, u4, u5, u6⟩ := unset_spec [py!"python_too_old"] s1
      refine ⟨_, rfl, u3.trans h1, u2.trans h2, u1.trans h3, u4.trans h4, ?_, fun x hx => ?_⟩
      · exact (find_vars (u6 _ (.inl (by decide))).1).trans (u6 _ (.inl (by decide))).2
      · rw [← h5 x hx]
        obtain ⟨a, b⟩ := u5 x (by simpa using hx)
        unfold Shell.find
        rw [a, b]
    rcases hp with hp | hp
    · rw [hp]
      exact hun s rfl rfl rfl rfl fun _ _ => rfl
    · rw [hp]
      refine hun (Shell.assign py!"python_too_old" py!"True" s) ?_ ?_ ?_ ?_ fun x hx => ?_
      all_goals unfold Shell.assign
      all_goals split
      all_goals try rfl
      · show (match Dict.get? (Dict.set s.environ _ _) x with | some v => some v | none => Dict.get? s.vars x) = _
        rw [Dict.get?_set_ne _ _ hx]; rfl
      · show (match Dict.get? s.environ x with | some v => some v | none => Dict.get? (Dict.set s.vars _ _) x) = _
        rw [Dict.get?_set_ne _ _ hx]; rfl

/-- C66: without arguments, or with `--help`, gen-config.sh shows the help and returns 1. -/
theorem C66_help (hfit : FitGc W s) (ha : args = [] ∨ Mentioned py!"--help" args)
    (hr : W.run (genCall W [py!"--help"]) s.environ s.files = (st, F)) :
    ∃ s', genConfig W args s = (.ok 1, s') ∧
      GcLeaves s s' (s.get py!"USER") s.environ [⟨genCall W [py!"--help"], s.environ, s.helper⟩] F := gc_help hfit ha hr

/-- C66: with neither a directory as the last argument nor `--cmake-fragment`, gen-config.sh returns 1 and starts nothing. -/
theorem C66_no_source (hfit : FitGc W s) {d : Str} (hl : args.getLast? = some d) (hd : d ≠ []) (hs : Solid d) (hdir : W.isDir d = false)
    (hh : ¬ Mentioned py!"--help" args) (hf : ¬ Mentioned py!"--cmake-fragment" args) :
    ∃ s', genConfig W args s = (.ok 1, s') ∧ GcLeaves s s' (s.get py!"USER") s.environ [] s.files := gc_no_source hfit hl hd hs hdir hh hf

/-- C66: if gen_config.py fails, gen-config.sh loads no environment and does not configure, but returns 0. -/
theorem C66_failed (hfit : FitGc W s) (hne : args ≠ []) (hh : ¬ Mentioned py!"--help" args) (hsp : Splits W s args init src)
    (hpat : ∀ a ∈ init, NoPattern a) (hpass : Passed init ws) (hr : W.run (genCall W ws) s.environ s.files = (st, F)) (hst : st ≠ 0) :
    ∃ s', genConfig W args s = (.ok 0, s') ∧
      GcLeaves s s' (s.get py!"USER") s.environ [⟨genCall W ws, s.environ, s.helper⟩] F := by
  obtain ⟨s1, s2, _, g, _, e⟩ := gc_first hfit hne hh hsp hpat hpass hr
  rw [e, if_pos hst]
  exact g.cleanup hfit.user

section
variable {c : Str} {F2 : Dict Str Str}

/-- C66: the same if gen_config.py fails when it is asked for the arguments for LoadEnv. -/
theorem C66_save_failed (hfit : FitGc W s) (hne : args ≠ []) (hh : ¬ Mentioned py!"--help" args) (hsp : Splits W s args init src)
    (hpat : ∀ a ∈ init, NoPattern a) (hpass : Passed init ws) (hr : W.run (genCall W ws) s.environ s.files = (0, F))
    (hc : CatGives F (userFile (s.get py!"USER") py!".bash_cmake_args_loc") c)
    (hr2 : W.run (genCall W (ws ++ [py!"--save-load-env-args", userFile (s.get py!"USER") py!".load_env_args"])) (exportedEnv s.environ c src) F = (st, F2))
    (hst : st ≠ 0) :
    ∃ s', genConfig W args s = (.ok 0, s') ∧
      GcLeaves s s' (s.get py!"USER") s.environ [⟨genCall W ws, s.environ, s.helper⟩,
        ⟨genCall W (ws ++ [py!"--save-load-env-args", userFile (s.get py!"USER") py!".load_env_args"]), exportedEnv s.environ c src, true⟩] F2 := by
  obtain ⟨s1, g, e⟩ := gc_second hfit hne hh hsp hpat hpass hr hc
  obtain ⟨s2, e2, g2⟩ := prepared_start g hr2
  rw [e, M.bind_ok e2, if_pos hst]
  exact prepared_clean g2 hfit.user

/-- C66: if gen_config.py succeeds both times, load-env.sh is sourced with the words of the file that it has written (or with the
arguments of gen-config.sh, if there are none), in a shell with the two exported variables; gen-config.sh then returns 0, whatever
load-env.sh has returned. -/
theorem C66_loads (hfit : FitGc W s) (hne : args ≠ []) (hh : ¬ Mentioned py!"--help" args) (hsp : Splits W s args init src)
    (hpat : ∀ a ∈ init, NoPattern a) (hpass : Passed init ws) (hr : W.run (genCall W ws) s.environ s.files = (0, F))
    (hc : CatGives F (userFile (s.get py!"USER") py!".bash_cmake_args_loc") c)
    (hr2 : W.run (genCall W (ws ++ [py!"--save-load-env-args", userFile (s.get py!"USER") py!".load_env_args"])) (exportedEnv s.environ c src) F = (0, F2))
    {a : Str} {as : List Str} (ha : CatGives F2 (userFile (s.get py!"USER") py!".load_env_args") a) (hap : NoPattern a) (has : ShellWords a as) :
    ∃ s2, GcPrepared s s2 c src [⟨genCall W ws, s.environ, s.helper⟩,
        ⟨genCall W (ws ++ [py!"--save-load-env-args", userFile (s.get py!"USER") py!".load_env_args"]), exportedEnv s.environ c src, true⟩] F2 ∧
      (∀ n s3, loadEnv W (if as = [] then args else as) s2 = (.ok n, s3) → Solid (s3.get py!"USER") →
        ∃ s', genConfig W args s = (.ok 0, s') ∧ GcLeaves s3 s' (s3.get py!"USER") s3.environ [] s3.files) ∧
      (∀ e s3, loadEnv W (if as = [] then args else as) s2 = (.exc e, s3) → genConfig W args s = (.exc e, s3)) := by
  obtain ⟨s1, g, e⟩ := gc_second hfit hne hh hsp hpat hpass hr hc
  obtain ⟨s2, e2, g2⟩ := prepared_start g hr2
  have hun : Dict.get? s2.environ py!"load_env_call_args" = none := by
    rw [g2.environ, exportedEnv_other _ _ _ (by decide) (by decide)]
    exact hfit.unexported _ (.inl (by decide))
  have g3 := prepared_assign g2 (x := py!"load_env_call_args") (by decide) hun a
  have hcat : Bash.dropLineEnds ((Dict.get? s2.files (userFile (s.get py!"USER") py!".load_env_args")).getD []) = a := by
    rw [(catGives_iff _ _ _).1 ha, g2.files]
  have hu := solid_userFile hfit.user (n := py!".load_env_args") (by unfold Solid; decide)
  rw [M.bind_ok e2, if_neg (by decide), M.bind_ok (cat_ok hu (by simp [userFile]) s2), hcat, M.bind_ok (modify_ok _ s2),
    M.bind_ok (unquoted_ok hap _), (words_iff _ _).1 has] at e
  refine ⟨_, g3, fun n s3 hl hu3 => ?_, fun x s3 hl => ?_⟩
  · rw [e, M.bind_ok hl]
    obtain ⟨s', e', h1, h2, h3, h4, h5, h6⟩ := cleanupGc_ok (s := s3) hu3
    exact ⟨s', e', ⟨h1, h2, fun x hx _ => h3 x hx, h4, by rw [h5, List.append_nil], h6⟩⟩
  · rw [e, M.bind_exc hl]

/-- C66, with `--ci-mode`: the environment is loaded in the calling shell, and CMake is started in that environment with the words of the
file with the flags and the path to the source. gen-config.sh returns 0, also if CMake fails. -/
theorem C66_ci (hfit : FitGc W s) (hload : s.get py!"LOAD_ENV_INTERACTIVE_MODE" = []) (hdir : Solid W.loadDir) (hrandom : Solid W.random)
    {d : Str} (hh : ¬ Mentioned py!"--help" (init ++ [d])) (hd : d ≠ []) (hds : Solid d) (hdd : W.isDir d = true)
    (hpat : ∀ a ∈ init, NoPattern a) (hpass : Passed init ws) (hr : W.run (genCall W ws) s.environ s.files = (0, F))
    (hc : CatGives F (userFile (s.get py!"USER") py!".bash_cmake_args_loc") c) (hcs : Solid c) (hcne : c ≠ [])
    {env1 env2 : Environ} (henv1 : env1 = exportedEnv s.environ c (some d)) (hpy : W.python env1 = some false)
    (hr2 : W.run (genCall W (ws ++ [py!"--save-load-env-args", userFile (s.get py!"USER") py!".load_env_args"])) env1 F = (0, F2))
    {a : Str} {as : List Str} (ha : CatGives F2 (userFile (s.get py!"USER") py!".load_env_args") a) (hap : NoPattern a) (has : ShellWords a as)
    (hci : AsksForCi as) {F3 : Dict Str Str} (hr3 : W.run (pythonCall W as) env1 F2 = (0, F3))
    {f t rc : Str} (hp : Points F3 (location W) f) (ht : Dict.get? F3 f = some t) (hrc : RcOf f rc)
    (hl : W.load t env1 = (.ok (), env2)) (hn2 : Hidden env2) (hu2 : Solid ((with_ s env2).get py!"USER"))
    (hk1 : Dict.get? env2 py!"cmake_args_file" = some c) (hk2 : Dict.get? env2 py!"path_to_src" = some d)
    {flags : Str} {fs : List Str} (hflags : Dict.get? F3 c = some flags) (hcrc : c ≠ rc) (hfp : NoPattern flags) (hfs : ShellWords flags fs) :
    ∃ text, text = fileOf (loadLines f ++ [helperLine]) ∧ ∀ st' F4, W.run (py!"cmake" :: (fs ++ [d])) env2 (Dict.set F3 rc text) = (st', F4) →
      ∃ s', genConfig W (init ++ [d]) s = (.ok 0, s') ∧
        s'.started = s.started ++ [⟨genCall W ws, s.environ, s.helper⟩,
          ⟨genCall W (ws ++ [py!"--save-load-env-args", userFile (s.get py!"USER") py!".load_env_args"]), env1, true⟩,
          ⟨pythonCall W as, env1, true⟩, ⟨py!"cmake" :: (fs ++ [d]), env2, true⟩] ∧
        (∀ x, x ∉ genConfigNames → Dict.get? s'.environ x = Dict.get? env2 x) ∧ (∀ x ∈ genConfigNames, s'.find x = none) ∧
        (∀ x, x ∉ genConfigNames → x ∉ loadEnvNames → Dict.get? s'.vars x = Dict.get? s.vars x) ∧ s'.helper = false ∧
        Removed F4 s'.files fun p => Gone ((with_ s env2).get py!"USER") (some f) p ∨
          p = userFile ((with_ s env2).get py!"USER") py!".bash_cmake_args_loc" ∨ p = userFile ((with_ s env2).get py!"USER") py!".load_env_args" := by
  subst henv1
  obtain ⟨s2, g, h1, _⟩ := C66_loads hfit (by simp) hh (.directory hds (.inr hdd)) hpat hpass hr hc hr2 ha hap has
  have hane : as ≠ [] := by
    rintro rfl
    have := hci [] (joinStr_separated _ _)
    obtain ⟨x, y, hxy⟩ := this
    exact absurd (congrArg List.length hxy) (by simp)
  rw [if_neg hane] at h1
  have hword : ∀ b ∈ as, NoPattern b := by
    intro b hb ch hch
    exact hap ch (shell_mem has b hb ch hch)
  have hpass2 : Passed as as := by
    refine (passed_iff _ _).2 ?_
    exact shell_solid has
  have hfit2 : Fit W s2 := by
    refine ⟨hfit.sourced, fun x hx => ?_, ?_, ?_⟩
    · rw [g.environ, exportedEnv_other _ _ _ (fun hh => by rw [hh] at hx; revert hx; decide) (fun hh => by rw [hh] at hx; revert hx; decide)]
      exact hfit.unexported x (.inr hx)
    · refine Eq.trans ?_ hload
      unfold Shell.get Shell.find
      rw [g.environ, exportedEnv_other _ _ _ (by decide) (by decide), g.vars _ (by decide)]
    · rw [prepared_user g]; exact hfit.user
  have hus2 : Usable W s2 := ⟨by rw [g.environ]; exact hpy, hdir, hrandom⟩
  have huser : (with_ s2 env2).get py!"USER" = (with_ s env2).get py!"USER" := by
    unfold Shell.get Shell.find
    show (match Dict.get? env2 py!"USER" with | some v => some v | none => Dict.get? s2.vars py!"USER").getD [] = _
    rw [g.vars _ (by decide)]
    rfl
  obtain ⟨text, ht0, h2⟩ := C65_ci hfit2 hus2 hane hword hpass2 (by rw [g.environ, g.files]; exact hr3) hp ht hrc hci (by rw [g.environ]; exact hl) hn2
    (by rw [huser]; exact hu2)
  refine ⟨text, ht0, fun st' F4 hcm => ?_⟩
  have hget1 : (with_ s2 env2).get py!"cmake_args_file" = c := get_find (by unfold Shell.find; rw [show (with_ s2 env2).environ = env2 from rfl, hk1])
  have hget2 : (with_ s2 env2).get py!"path_to_src" = d := get_find (by unfold Shell.find; rw [show (with_ s2 env2).environ = env2 from rfl, hk2])
  have hhelp : Helper W (with_ s2 env2) (Dict.set F3 rc text) [⟨py!"cmake" :: (fs ++ [d]), env2, true⟩] F4 := by
    refine .cmake (text := flags) (ws := fs) (ps := [d]) (st := st') g.helper (by rw [hget1]; exact hcne) (by rw [hget1]; exact hcs) ?_ hfp hfs
      (by rw [hget2]; exact hd) (by rw [hget2]; exact solid_noPattern hds) ?_ hcm
    · rw [hget1, Dict.get?_set_ne _ _ hcrc]; exact hflags
    · rw [hget2]; exact (words_iff _ _).2 (solid_words hds hd)
  obtain ⟨s3, e3, l3, _, r3⟩ := h2 _ _ hhelp
  have hu3 : s3.get py!"USER" = (with_ s env2).get py!"USER" := by
    rw [← huser]
    unfold Shell.get Shell.find
    rw [l3.environ, l3.vars _ (by decide)]
    rfl
  obtain ⟨s', e', g'⟩ := h1 0 s3 e3 (by rw [hu3]; exact hu2)
  refine ⟨s', e', ?_, fun x hx => ?_, g'.unset, fun x hx hx' => ?_, g'.helper, fun p => ?_⟩
  · rw [g'.started, List.append_nil, l3.started, g.started, g.environ, g.helper, List.append_assoc]
    rfl
  · rw [g'.environ x hx, l3.environ]
  · rw [g'.vars x hx hx', l3.vars x hx', g.vars x hx]
  · obtain ⟨q1, q2⟩ := g'.files p
    obtain ⟨q3, q4⟩ := r3 p
    rw [hu3] at q1 q2
    rw [huser] at q3 q4
    refine ⟨fun hg => ?_, fun hg => ?_⟩
    · by_cases hg' : p = userFile ((with_ s env2).get py!"USER") py!".bash_cmake_args_loc" ∨ p = userFile ((with_ s env2).get py!"USER") py!".load_env_args"
      · exact q1 hg'
      · rw [q2 hg']; exact q3 (hg.resolve_right hg')
    · rw [not_or] at hg
      rw [q2 hg.2, q4 hg.1]

end

/-- C66, the scripts and the programs together, with `--ci-mode`: CMake is started with the options that are generated for the
configuration of the build name (and a backslash between each two of them) and the path to the source, in the environment that the
actions of the environment section make of the one that there was. The calling shell keeps that environment, and gen-config.sh
returns 0. -/
theorem C66_program {G : GenSite} {S : Site} {tools : Bash.Tools} {d out tmp loc sv rc : Str} {env1 : Environ} {input input2 : List Str} {F F2 : Dict Str Str} {app : App}
    (hfit : FitGc W s) (hloaded : s.get py!"LOAD_ENV_INTERACTIVE_MODE" = []) (hdir : Solid W.loadDir) (hrandom : Solid W.random)
    (hloc : loc = userFile (s.get py!"USER") py!".bash_cmake_args_loc") (hsv : sv = userFile (s.get py!"USER") py!".load_env_args")
    (henv1 : env1 = exportedEnv s.environ out (some d)) (hpy : W.python env1 = some false)
    (hh : ¬ Mentioned py!"--help" (init ++ [d])) (hd : d ≠ []) (hds : Solid d) (hdd : W.isDir d = true)
    (hpat : ∀ a ∈ init, NoPattern a) (hpass : Passed init ws)
    -- the programs
    (hg1 : RunsGen W (genCall W ws) s.environ s.files G input out loc)
    (hF : F = (W.run (genCall W ws) s.environ s.files).2) (hF2e : F2 = (W.run (genCall W (ws ++ [py!"--save-load-env-args", sv])) env1 F).2)
    (hg2 : RunsGen W (genCall W (ws ++ [py!"--save-load-env-args", sv])) env1 F { G with args := { G.args with saveArgs := some sv } } input2 out loc)
    (hle : RunsLoadEnv W (pythonCall W (loadEnvArgs G.args)) env1 F2 S G.args.build G.args.force tmp (location W))
    (hload : W.load = source tools S.sys.bashHeader)
    -- the command line
    (ha1 : G.args.listFlags = false) (ha2 : G.args.listConfigs = false) (ha3 : G.args.saveArgs = none) (ha4 : G.args.fragment = none)
    (ha5 : G.args.ciMode = true) (hw : OneWord G.args.build ∧ OneWord G.args.systemsFile ∧ OneWord G.args.envsFile ∧ OneWord G.args.specsFile)
    (hwp : NoPattern G.args.build ∧ NoPattern G.args.systemsFile ∧ NoPattern G.args.envsFile ∧ NoPattern G.args.specsFile)
    -- the paths
    (hout : Solid out) (hone : out ≠ []) (htmp : ScriptPath tmp) (hrc : RcOf tmp rc)
    (hdis : out ≠ loc ∧ out ≠ sv ∧ out ≠ tmp ∧ out ≠ location W ∧ out ≠ rc ∧ tmp ≠ location W)
    -- the configuration
    {c : Str} {os : List Str} (hc : Target G.tool G.args.build G.args.force c) (hos : G.gen c py!"bash" = .ok os)
    (how : ∀ w ∈ os, OneWord w) (hop : ∀ w ∈ os, NoPattern w)
    -- the environment
    (hn : NoHookOptions S.env)
    (hclean : ∀ q l, EnvironmentIs S.tool G.args.build G.args.force q → EnvActions S q l → ∀ x ∈ l, Clean x)
    (hport : ∀ q l, EnvironmentIs S.tool G.args.build G.args.force q → EnvActions S q l → PortableRun S.sys tools env1 l)
    (hplain : ∀ q, EnvironmentIs S.tool G.args.build G.args.force q → PlainName q)
    (happ : App.main S false tmp none (some (location W)) (App.new G.args.build G.args.force env1 F2) = (.ok (), app))
    (hkeep : Hidden app.environ ∧ Solid ((with_ s app.environ).get py!"USER") ∧ Dict.get? app.environ py!"cmake_args_file" = some out ∧
      Dict.get? app.environ py!"path_to_src" = some d) :
    ∃ q l ms env2 fs s', EnvironmentIs S.tool G.args.build G.args.force q ∧ EnvActions S q l ∧ Program S.sys l ms ∧ Goes ms env1 (.ok ()) app.environ ∧
      env2 = Dict.set app.environ py!"LOADED_ENV_NAME" q ∧ Between py!"\\" os fs ∧ genConfig W (init ++ [d]) s = (.ok 0, s') ∧
      s'.started = s.started ++ [⟨genCall W ws, s.environ, s.helper⟩, ⟨genCall W (ws ++ [py!"--save-load-env-args", sv]), env1, true⟩,
        ⟨pythonCall W (loadEnvArgs G.args), env1, true⟩, ⟨py!"cmake" :: (fs ++ [d]), env2, true⟩] ∧
      (∀ x, x ∉ genConfigNames → Dict.get? s'.environ x = Dict.get? env2 x) ∧ (∀ x ∈ genConfigNames, s'.find x = none) ∧
      (∀ x, x ∉ genConfigNames → x ∉ loadEnvNames → Dict.get? s'.vars x = Dict.get? s.vars x) ∧ s'.helper = false := by
  obtain ⟨hd1, hd2, hd3, hd4, hd5, hd6⟩ := hdis
  -- the first run of gen_config.py
  obtain ⟨m1, _⟩ := C63_main_flags (W := G) s.files input out loc hd1 ha1 ha2 ha3 ha4
  obtain ⟨k1, k2, k3, _⟩ := m1 c os _ hc hos (joinStr_separated _ _)
  obtain ⟨b1, b2⟩ := hg1
  rw [k1] at b2
  have hr : W.run (genCall W ws) s.environ s.files = (0, (W.run (genCall W ws) s.environ s.files).2) := Prod.ext (b2.2 rfl) rfl
  rw [← b1] at k2 k3
  rw [← hF] at hr k2 k3
  -- the second run
  obtain ⟨k4, k5, _⟩ := C63_main_save (W := { G with args := { G.args with saveArgs := some sv } }) F input2 out loc sv _ ha1 ha2 rfl (joinStr_separated _ _)
  obtain ⟨b3, b4⟩ := hg2
  rw [k4] at b4
  rw [← b3] at k5
  have hr2 : W.run (genCall W (ws ++ [py!"--save-load-env-args", sv])) env1 F =
    (0, (W.run (genCall W (ws ++ [py!"--save-load-env-args", sv])) env1 F).2) := Prod.ext (b4.2 rfl) rfl
  rw [← hF2e] at hr2 k5
  have hargs : loadEnvArgs { G.args with saveArgs := some sv } = loadEnvArgs G.args := rfl
  dsimp only at k5
  rw [hargs] at k5
  -- load_env.py
  have hm := C61_main (W := S) (b := G.args.build) (f := G.args.force) (environ := env1) (files := F2) hn hclean tmp none (some (location W))
  rcases hm with ⟨q, l, ms, ls, env', h1, h2, h3, h4, h5, h6, h7, h8⟩ | ⟨hno, _⟩
  case inr => rw [happ] at hno; exact absurd rfl (hno ())
  obtain ⟨b5, b6⟩ := hle
  rw [h6] at b6
  rw [happ] at h7
  change app.environ = env' at h7
  subst h7
  rw [← b5] at h8
  have hr3 : W.run (pythonCall W (loadEnvArgs G.args)) env1 F2 = (0, (W.run (pythonCall W (loadEnvArgs G.args)) env1 F2).2) :=
    Prod.ext (b6.2 rfl) rfl
  generalize (W.run (pythonCall W (loadEnvArgs G.args)) env1 F2).2 = F3 at hr3 h8
  have hF1 : Dict.get? F3 (location W) = some tmp := (h8 _).1 rfl
  have hF2 : Dict.get? F3 tmp = some (matchingScript S ls q) := (h8 tmp).2.1 (fun hh => hd6 (Option.some.inj hh).symm) (.inl rfl)
  have hF3 : Dict.get? F3 out = some (joinStr py!" \\\n    " os) :=
    ((h8 out).2.2 (fun hh => hd4 (Option.some.inj hh).symm) hd3 (by simp)).trans ((k5.2 out hd2).trans k2)
  have hsource : W.load (matchingScript S ls q) env1 = (.ok (), Dict.set app.environ py!"LOADED_ENV_NAME" q) := by
    rw [hload]
    exact source_matching h5 h3 (hport q l h1 h2) h4 (hplain q h1)
  obtain ⟨hk1, hk2, hk3, hk4⟩ := hkeep
  have hne : ∀ x, x ≠ py!"LOADED_ENV_NAME" → Dict.get? (Dict.set app.environ py!"LOADED_ENV_NAME" q) x = Dict.get? app.environ x := fun x hx => Dict.get?_set_ne _ _ hx
  have hu : (with_ s (Dict.set app.environ py!"LOADED_ENV_NAME" q)).get py!"USER" = (with_ s app.environ).get py!"USER" := by
    unfold Shell.get Shell.find
    show (match Dict.get? (Dict.set app.environ py!"LOADED_ENV_NAME" q) py!"USER" with | some v => some v | none => Dict.get? s.vars py!"USER").getD [] = _
    rw [hne _ (by decide)]
    rfl
  obtain ⟨fs, hb, hfs⟩ := C63_flags_words os _ (joinStr_separated _ _) how
  have hap : NoPattern (joinStr py!" " (loadEnvArgs G.args)) := by
    refine noPattern_joinStr (by unfold NoPattern; decide) ?_
    intro w hm
    have hlit : ∀ x ∈ [py!"--supported-systems", py!"--supported-envs", py!"--environment-specs", py!"--force", py!"--ci-mode"], NoPattern x := by
      unfold NoPattern; decide
    obtain ⟨flags, hfl, _, _, _, he⟩ := C63_load_env_args G.args
    rw [he] at hm
    simp only [List.mem_cons, List.mem_append, List.not_mem_nil, or_false] at hm
    rcases hm with rfl | rfl | rfl | rfl | rfl | rfl | hm | rfl
    · exact hlit _ (by decide)
    · exact hwp.2.1
    · exact hlit _ (by decide)
    · exact hwp.2.2.1
    · exact hlit _ (by decide)
    · exact hwp.2.2.2
    · rcases hfl w hm with rfl | rfl <;> exact hlit _ (by decide)
    · exact hwp.1
  have has := (C63_saved_args G.args _ (joinStr_separated _ _) hw _).2 rfl
  have hci : AsksForCi (loadEnvArgs G.args) := by
    intro t ht
    rw [separated_det ht]
    refine inside_join ?_
    unfold loadEnvArgs
    simp [ha5]
  subst hloc hsv
  obtain ⟨text, _, hfin⟩ := C66_ci (c := out) (F2 := F2) hfit hloaded hdir hrandom hh hd hds hdd hpat hpass hr
    (.inr ⟨[], by simp, fun hx => hout '\n' (List.mem_of_getLast? hx) (by simp), by simpa using k3⟩) hout hone henv1 hpy hr2
    ((catGives_iff _ _ _).2 rfl) (by rw [k5.1]; exact noPattern_dropLineEnds hap) (by rw [k5.1]; exact words_dropLineEnds has) hci hr3
    ⟨htmp, [], by simp, by simpa using hF1⟩ hF2 hrc hsource
    (fun x hx => (hne x (by rintro rfl; revert hx; decide)).trans (hk1 x hx)) (by rw [hu]; exact hk2) ((hne _ (by decide)).trans hk3)
    ((hne _ (by decide)).trans hk4) hF3 hd5 (noPattern_joinStr (by unfold NoPattern; decide) hop) ((hfs fs).2 rfl)
  obtain ⟨s', e1, e2, e3, e4, e5, e6, _⟩ := hfin _ _ rfl
  exact ⟨q, l, ms, _, fs, s', h1, h2, h3, h4, rfl, hb, e1, e2, e3, e4, e5, e6⟩

end
/-! ### Examples -/

/-- The command line of `gen-config.sh --ci-mode gnu_teko /src`, for gen_config.py. -/
def genSite1 : GenSite := { tool := toolGood, gen := exGen, args := { exArgs with build := py!"gnu_teko", fragment := none } }

/-- A machine on which gen_config.py and load_env.py serve the sites of the examples; `cmake` fails. -/
def machine1 : Machine := { machine0 with
  run := fun argv env files =>
    if py!"/opt/GenConfig/gen_config.py" ∈ argv then
      if py!"bad" ∈ argv then (2, files)
      else if py!"--save-load-env-args" ∈ argv then
        let r := Job.main { genSite1 with args := { genSite1.args with saveArgs := argv.getLast? } } py!"/tmp/jo/args7" py!"/tmp/jo/.bash_cmake_args_loc"
          (Job.new genSite1.args files [])
        (match r.1 with | .ok _ => 0 | _ => 1, r.2.files)
      else
        let r := Job.main genSite1 py!"/tmp/jo/args7" py!"/tmp/jo/.bash_cmake_args_loc" (Job.new genSite1.args files [])
        (match r.1 with | .ok _ => 0 | _ => 1, r.2.files)
    else if py!"/opt/LoadEnv/load_env.py" ∈ argv then
      let r := App.main site0 false py!"/tmp/t.sh" none (some py!".load_matching_env_loc.7") (App.new py!"gnu_teko" false env files)
      (match r.1 with | .ok _ => 0 | _ => 1, r.2.files)
    else (1, files) }

/-- What the shell is left with, and what has been started. -/
example :
    let r := genConfig machine1 [py!"--ci-mode", py!"gnu_teko", py!"/src"] shell0
    r.1 = .ok 0 ∧ r.2.environ = siteEnviron ++ [(py!"LOADED_ENV_NAME", py!"machine-1_gnu-9-openmpi")] ∧ r.2.helper = false ∧
    r.2.started.map (·.argv.getLast?) = [some py!"gnu_teko", some py!"/tmp/jo/.load_env_args", some py!"gnu_teko", some py!"/src"] ∧
    (r.2.started.map (·.argv)).getLast? = some [py!"cmake", py!"-DA=1", py!"\\", py!"-DB=2", py!"\\", py!"-G=Ninja", py!"/src"] ∧
    r.2.started.map (·.helper) = [false, true, true, true] ∧
    Dict.get? r.2.files py!"/tmp/jo/.load_env_args" = none ∧ Dict.get? r.2.files py!"/tmp/t.sh" = none := by
  refine ⟨?_, ?_, ?_, ?_, ?_, ?_, ?_, ?_⟩ <;> decide +kernel

/-- No directory; a failure of gen_config.py; an old Python; `--help`. -/
example :
    (genConfig machine1 [py!"--ci-mode", py!"gnu_teko"] shell0).1 = .ok 1 ∧ (genConfig machine1 [py!"--ci-mode", py!"gnu_teko"] shell0).2.started.length = 0 ∧
    (genConfig machine1 [py!"--cmake-fragment", py!"bad"] shell0).1 = .ok 0 ∧
    (genConfig machine1 [py!"--cmake-fragment", py!"bad"] shell0).2.environ = exampleEnviron ∧
    (genConfig machine1 [py!"--cmake-fragment", py!"bad"] shell0).2.started.length = 1 ∧
    (genConfig { machine1 with python := fun _ => none } [py!"gnu_teko", py!"/src"] shell0).1 = .ok 1 ∧
    (genConfig machine1 [py!"--helper"] shell0).1 = .ok 1 ∧ (genConfig machine1 [py!"--helper"] shell0).2.started.length = 1 := by
  refine ⟨?_, ?_, ?_, ?_, ?_, ?_, ?_, ?_⟩ <;> decide +kernel

theorem shell0_fitGc : FitGc machine1 shell0 := by
  refine ⟨rfl, ?_, by unfold Solid; decide +kernel, by unfold Solid; decide +kernel, rfl⟩
  intro x hx
  have : ∀ y ∈ genConfigNames ++ loadEnvNames, Dict.get? shell0.environ y = none := by decide +kernel
  exact this x (List.mem_append.2 hx)

theorem splits1 : Splits machine1 shell0 [py!"--ci-mode", py!"gnu_teko", py!"/src"] [py!"--ci-mode", py!"gnu_teko"] (some py!"/src") :=
  .directory (init := [py!"--ci-mode", py!"gnu_teko"]) (d := py!"/src") (by unfold Solid; decide) (.inr (by decide +kernel))

theorem splits2 : Splits machine1 shell0 [py!"--cmake-fragment", py!"bad"] [py!"--cmake-fragment", py!"bad"] none :=
  .fragment (d := py!"bad") rfl (by decide) (by unfold Solid; decide) (by decide +kernel) ((mentioned_iff _ _).1 (by decide +kernel))

/-- The hypotheses of C66_failed are met. -/
example : ∃ s', genConfig machine1 [py!"--cmake-fragment", py!"bad"] shell0 = (.ok 0, s') ∧
    GcLeaves shell0 s' py!"jo" exampleEnviron [⟨genCall machine1 [py!"--cmake-fragment", py!"bad"], exampleEnviron, false⟩] shell0.files :=
  C66_failed (ws := [py!"--cmake-fragment", py!"bad"]) shell0_fitGc (by simp) (fun h => absurd ((mentioned_iff _ _).2 h) (by decide +kernel)) splits2
    (by unfold NoPattern; decide +kernel) ((passed_iff _ _).2 (by decide +kernel)) (st := 2) (by decide +kernel) (by decide)

def env1 : Environ := exportedEnv exampleEnviron py!"/tmp/jo/args7" (some py!"/src")
def files2 : Dict Str Str := (machine1.run (genCall machine1 [py!"--ci-mode", py!"gnu_teko"]) shell0.environ shell0.files).2
def files3 : Dict Str Str :=
  (machine1.run (genCall machine1 ([py!"--ci-mode", py!"gnu_teko"] ++ [py!"--save-load-env-args", py!"/tmp/jo/.load_env_args"])) env1 files2).2
def app1 : App := (App.main site0 false py!"/tmp/t.sh" none (some (location machine1)) (App.new py!"gnu_teko" false env1 files3)).2

theorem env1_portable : PortableRun exampleSys exampleTools env1 siteActions := by
  refine .cons (.envvar (.two (op := py!"set") (by decide) (by decide)) (exampleVar (by decide +kernel))
    (.braced (x := py!"HOME") (v := py!"/home/u") ((Bash.isIdent_iff _).1 (by decide +kernel)) (by decide +kernel)
      (means_text (s := py!"/sw") (by decide +kernel))) .set (noNul_of (by decide +kernel)))
    (.envvar (.two (op := py!"set") (by decide) (by decide))) ?_
  intro i e1 h
  have h1 : e1 = (SetEnv.envvarOp exampleSys py!"set" py!"ROOT" py!"${HOME}/sw" true env1).2 := (congrArg Prod.snd h).symm
  rw [show (SetEnv.envvarOp exampleSys py!"set" py!"ROOT" py!"${HOME}/sw" true env1).2 = env1 ++ [(py!"ROOT", py!"/home/u/sw")] by
    decide +kernel] at h1
  subst h1
  refine .cons (.envvar (.two (op := py!"append") (by decide) (by decide)) (exampleVar (by decide +kernel))
    (.bare (x := py!"ROOT") (v := py!"/home/u/sw") ((Bash.isIdent_iff _).1 (by decide +kernel))
      (by intro c r h; cases h; decide) (by decide +kernel)
      (means_text (s := py!"/bin") (by decide +kernel))) (.append (by decide)) (noNul_of (by decide +kernel)))
    (.envvar (.two (op := py!"append") (by decide) (by decide))) ?_
  intro i e2 h
  refine .cons (.module (.loadVersion (n := py!"gcc") (v := py!"4.8") (by decide)) ?_ rfl rfl)
    (.module (.loadVersion (n := py!"gcc") (v := py!"4.8") (by decide))) fun _ _ _ => .nil
  intro w hw
  simp only [List.mem_cons, List.not_mem_nil, or_false] at hw
  rcases hw with rfl | rfl
  · exact ⟨by decide, fun c hc => (Bash.bare_iff c).1 (by revert c; decide +kernel)⟩
  · exact ⟨by decide, fun c hc => (Bash.bare_iff c).1 (by revert c; decide +kernel)⟩

theorem machine1_le : RunsLoadEnv machine1 (pythonCall machine1 (loadEnvArgs genSite1.args)) env1 files3 site0 py!"gnu_teko" false py!"/tmp/t.sh"
    (location machine1) := by
  unfold RunsLoadEnv
  refine ⟨?_, ?_⟩ <;> decide +kernel

theorem machine1_gen1 : RunsGen machine1 (genCall machine1 [py!"--ci-mode", py!"gnu_teko"]) shell0.environ shell0.files genSite1 []
    py!"/tmp/jo/args7" py!"/tmp/jo/.bash_cmake_args_loc" := by
  unfold RunsGen
  refine ⟨?_, ?_⟩ <;> decide +kernel

theorem machine1_gen2 : RunsGen machine1 (genCall machine1 ([py!"--ci-mode", py!"gnu_teko"] ++ [py!"--save-load-env-args", py!"/tmp/jo/.load_env_args"]))
    env1 files2 { genSite1 with args := { genSite1.args with saveArgs := some py!"/tmp/jo/.load_env_args" } } []
    py!"/tmp/jo/args7" py!"/tmp/jo/.bash_cmake_args_loc" := by
  unfold RunsGen
  refine ⟨?_, ?_⟩ <;> decide +kernel

theorem machine1_app : App.main site0 false py!"/tmp/t.sh" none (some (location machine1)) (App.new py!"gnu_teko" false env1 files3) = (.ok (), app1) := by
  have h : ∀ x : Out Unit × App, x.1 = .ok () → x = (.ok (), x.2) := fun x h => by rw [← h]
  exact h _ (by decide +kernel)

/-- The hypotheses of C66_program are met. -/
example : ∃ s' fs, genConfig machine1 [py!"--ci-mode", py!"gnu_teko", py!"/src"] shell0 = (.ok 0, s') ∧
    Between py!"\\" [py!"-DA=1", py!"-DB=2", py!"-G=Ninja"] fs ∧
    (s'.started.map (·.argv)).getLast? = some (py!"cmake" :: (fs ++ [py!"/src"])) := by
  obtain ⟨q, l, ms, env2, fs, s', h1, h2, h3, h4, h5, h6, h7, h8, _⟩ := C66_program (W := machine1) (s := shell0) (G := genSite1) (S := site0)
    (tools := exampleTools) (init := [py!"--ci-mode", py!"gnu_teko"]) (ws := [py!"--ci-mode", py!"gnu_teko"]) (d := py!"/src")
    (out := py!"/tmp/jo/args7") (tmp := py!"/tmp/t.sh") (rc := py!"/tmp/t.rc") (loc := py!"/tmp/jo/.bash_cmake_args_loc") (sv := py!"/tmp/jo/.load_env_args") (env1 := env1) (input := []) (input2 := []) (F := files2) (F2 := files3)
    (app := app1) (c := py!"machine-1_gnu-9-openmpi_mpi_teko") (os := [py!"-DA=1", py!"-DB=2", py!"-G=Ninja"])
    shell0_fitGc (by decide +kernel) (by unfold Solid; decide +kernel) (by unfold Solid; decide +kernel) (by decide +kernel) (by decide +kernel) rfl rfl
    (fun h => absurd ((mentioned_iff _ _).2 h) (by decide +kernel)) (by decide) (by unfold Solid; decide) (by decide +kernel)
    (by unfold NoPattern; decide +kernel) ((passed_iff _ _).2 (by decide +kernel)) machine1_gen1 rfl rfl
    machine1_gen2 machine1_le rfl rfl rfl rfl rfl rfl (by unfold OneWord; decide +kernel) (by unfold NoPattern; decide +kernel)
    (by unfold Solid; decide) (by decide) ⟨fun c hc => (Bash.bare_iff c).1 (by revert c; decide +kernel), by decide, ⟨py!"/tmp/t", rfl⟩⟩
    ⟨py!"/tmp/t.", 's', 'h', rfl, rfl⟩ (by decide +kernel) ((C63_target ..).1 (by decide +kernel)) (by decide +kernel) (by unfold OneWord; decide +kernel)
    (by unfold NoPattern; decide +kernel) site_noHooks (fun q l => site_clean)
    (fun q l hq hl => by
      cases site_only hq
      cases envActions_unique hl site_actions
      exact env1_portable)
    (fun q hq => by
      cases site_only hq
      exact fun c hc => (Bash.bare_iff c).1 (by revert c; decide +kernel))
    machine1_app ⟨by unfold Hidden; decide +kernel, by unfold Solid; decide +kernel, by decide +kernel, by decide +kernel⟩
  refine ⟨s', fs, h7, h6, ?_⟩
  rw [h8]
  rfl

end CPE.Props
