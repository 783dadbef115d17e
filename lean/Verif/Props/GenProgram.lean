import Verif.Props.Programs
import Verif.Props.GenScript
/-
C74: the program gen_config.py from its command line and the texts of its files to what it leaves, alone and as part of
gen-config.sh.
-/
namespace CPE.Props
open CPE CPE.KW CPE.KW.Script CPE.KW.Spec CPE.SetEnv CPE.SetEnv.Spec CPE.Cli
open CPE.Spec hiding Item

section
variable {P : Place} {argv : List Str} {is : List Cli.Item} {g1 g2 f1 f2 f3 : Str} {doc le dg dc d1 d2 d3 : Doc} {environ : Environ} {files : Dict Str Str}
  {input : List Str} {b : Str} {f : Bool} {T : Tool} {L : Out Unit × Dict Str Str}

/-- C74: gen_config.py without an option that asks for something else writes the CMake options of the configuration that the build
name stands for to a temporary file, and the path of that file to a second one, and changes no other file; if there is no configuration
for the build name, or no options for it, it fails and the temporary file is empty. -/
theorem C74_flags (hr : Reading P.neg gcUsage argv is) (hu : Cli.Usable is) (l1 : switched py!"list_config_flags" is = false)
    (l2 : switched py!"list_configs" is = false) (l3 : lastValue py!"save_load_env_args" is = none) (l4 : lastValue py!"cmake_fragment" is = none)
    (hf : GcFiles P (P.disk files) is g1 g2 f1 f2 f3 doc) (hh : Hands P (P.disk files) b f1 f2 f3 le)
    (h1 : HasDoc (P.disk files) g1 dg) (h2 : HasDoc (P.disk files) g2 dc) (h3 : HasDoc (P.disk files) f1 d1) (h4 : HasDoc (P.disk files) f2 d2)
    (hb : b = (wordsOf is).headD []) (hff : f = switched py!"force" is) (hT : T = toolOf P dg dc d1 d2) (hne : P.out ≠ P.loc)
    (hL : L = gcProgram P argv files input) :
    (∀ c os t, Target T b f c → P.gen (confOf dc) c py!"bash" = .ok os → Separated py!" \\\n    " os t →
      L.1 = .ok () ∧ Dict.get? L.2 P.out = some t ∧ Dict.get? L.2 P.loc = some P.out ∧
      ∀ q, q ≠ P.out → q ≠ P.loc → Dict.get? L.2 q = Dict.get? files q) ∧
    (∀ e, (∃ c, Target T b f c ∧ P.gen (confOf dc) c py!"bash" = .exc e) ∨ (GC.configForOptions T (GC.new b f)).1 = .exc e →
      L.1 = .exc e ∧ OnlyChanged files L.2 P.out []) := by
  subst hb hff hT
  have e1 : (asked P is g1 g2 f1 f2 f3).saveArgs = none := by show target P _ is = none; unfold Cli.target; rw [l3]; rfl
  have e2 : (asked P is g1 g2 f1 f2 f3).fragment = none := by show target P _ is = none; unfold Cli.target; rw [l4]; rfl
  rw [gcProgram_ok hr hu hf, genWork_flags (A := asked P is g1 g2 f1 f2 f3) l1 l2 e1 e2 hh h1 h2 h3 h4] at hL
  subst hL
  obtain ⟨k1, k2, _⟩ := C63_main_flags (W := genSiteOf P (asked P is g1 g2 f1 f2 f3) dg dc d1 d2) files input P.out P.loc hne l1 l2 e1 e2
  exact ⟨k1, k2⟩

/-- C74: with `--cmake-fragment file` it writes the options of the configuration, one a line, to that file; a file that is there already is
replaced only if the user says so (`--yes`, or an answer), and no other file changes. Without a configuration or options it fails and
changes nothing. -/
theorem C74_fragment (hr : Reading P.neg gcUsage argv is) (hu : Cli.Usable is) (l1 : switched py!"list_config_flags" is = false)
    (l2 : switched py!"list_configs" is = false) (l3 : lastValue py!"save_load_env_args" is = none) {x : Str} (l4 : lastValue py!"cmake_fragment" is = some x)
    (hf : GcFiles P (P.disk files) is g1 g2 f1 f2 f3 doc) (hh : Hands P (P.disk files) b f1 f2 f3 le)
    (h1 : HasDoc (P.disk files) g1 dg) (h2 : HasDoc (P.disk files) g2 dc) (h3 : HasDoc (P.disk files) f1 d1) (h4 : HasDoc (P.disk files) f2 d2)
    (hb : b = (wordsOf is).headD []) (hff : f = switched py!"force" is) (hT : T = toolOf P dg dc d1 d2) {file : Str} (hfile : file = P.key (P.resolve x))
    (hL : L = gcProgram P argv files input) :
    (∀ c os t, Target T b f c → P.gen (confOf dc) c py!"cmake_fragment" = .ok os → Separated py!"\n" os t →
      ∃ r rest, Writing file t (switched py!"yes" is) files input r L.2 rest ∧ (∀ p, r = .ok p → L.1 = .ok ()) ∧ (∀ e, r = .exc e → L.1 = .exc e)) ∧
    (∀ e, (∃ c, Target T b f c ∧ P.gen (confOf dc) c py!"cmake_fragment" = .exc e) ∨ (GC.configForOptions T (GC.new b f)).1 = .exc e →
      L.1 = .exc e ∧ L.2 = files) := by
  subst hb hff hT hfile
  have e1 : (asked P is g1 g2 f1 f2 f3).saveArgs = none := by show target P _ is = none; unfold Cli.target; rw [l3]; rfl
  have e2 : (asked P is g1 g2 f1 f2 f3).fragment = some (P.key (P.resolve x)) := by show target P _ is = _; unfold Cli.target; rw [l4]; rfl
  rw [gcProgram_ok hr hu hf, genWork_fragment (A := asked P is g1 g2 f1 f2 f3) l1 l2 e1 e2 hh h1 h2 h3 h4] at hL
  subst hL
  obtain ⟨k1, k2⟩ := C63_main_fragment (W := genSiteOf P (asked P is g1 g2 f1 f2 f3) dg dc d1 d2) files input P.out P.loc _ l1 l2 e1 e2
  refine ⟨fun c os t hc hos ht => ?_, fun e he => ?_⟩
  · obtain ⟨r, q1, q2, q3⟩ := k1 c os t hc hos ht
    exact ⟨r, _, q1, q2, q3⟩
  · obtain ⟨q1, q2, _⟩ := k2 e he
    exact ⟨q1, q2⟩

/-- C74: with `--save-load-env-args file` it writes to that file the words with which load_env.py is to be called, and does nothing else; no
other file is read but gen-config.ini. -/
theorem C74_save (hr : Reading P.neg gcUsage argv is) (hu : Cli.Usable is) (l1 : switched py!"list_config_flags" is = false)
    (l2 : switched py!"list_configs" is = false) {x : Str} (l3 : lastValue py!"save_load_env_args" is = some x)
    (hf : GcFiles P (P.disk files) is g1 g2 f1 f2 f3 doc) (hL : L = gcProgram P argv files input) :
    ∃ ws t, LoadEnvCall (asked P is g1 g2 f1 f2 f3) ws ∧ Separated py!" " ws t ∧ L.1 = .ok () ∧ OnlyChanged files L.2 (P.key (P.resolve x)) t := by
  have e1 : (asked P is g1 g2 f1 f2 f3).saveArgs = some (P.key (P.resolve x)) := by show target P _ is = _; unfold Cli.target; rw [l3]; rfl
  rw [gcProgram_ok hr hu hf, genWork_save (A := asked P is g1 g2 f1 f2 f3) l1 l2 e1 [] [] [] []] at hL
  subst hL
  have ht := joinStr_separated py!" " (loadEnvArgs (asked P is g1 g2 f1 f2 f3))
  obtain ⟨k1, k2, _⟩ := C63_main_save (W := genSiteOf P (asked P is g1 g2 f1 f2 f3) [] [] [] []) files input P.out P.loc _ _ l1 l2 e1 ht
  exact ⟨_, _, C63_load_env_args _, ht, k1, k2⟩

/-- C74: with `--list-config-flags` it ends with SystemExit after the list, or with the failure to read the flags; with `--list-configs` it
ends with SystemExit after the list, or with the failure to find the system. No file changes. -/
theorem C74_list (hr : Reading P.neg gcUsage argv is) (hu : Cli.Usable is) (hf : GcFiles P (P.disk files) is g1 g2 f1 f2 f3 doc)
    (hb : b = (wordsOf is).headD []) (hff : f = switched py!"force" is) (hT : T = toolOf P dg dc d1 d2) (hL : L = gcProgram P argv files input) :
    (switched py!"list_config_flags" is = true → HasDoc (P.disk files) g1 dg → L.2 = files ∧
      (∀ k, CKP.new (cls T.flags) T.fuel b = .ok k →
        (∀ l, (CKP.optionsForAllFlags (cls T.flags) T.fuel k).1 = .ok l → L.1 = .exc .systemExit) ∧
        (∀ e, (CKP.optionsForAllFlags (cls T.flags) T.fuel k).1 = .exc e → L.1 = .exc e)) ∧
      (∀ e, CKP.new (cls T.flags) T.fuel b = .exc e → L.1 = .exc e)) ∧
    (switched py!"list_config_flags" is = false → switched py!"list_configs" is = true → Hands P (P.disk files) b f1 f2 f3 le →
      HasDoc (P.disk files) g2 dc → HasDoc (P.disk files) f1 d1 → L.2 = files ∧
      (∀ s, SystemIs T b f s → L.1 = .exc .systemExit) ∧
      (∀ e, (DS.systemName (cls T.systems) T.fuel T.host (DS.new (cls T.systems) b f)).1 = .exc e → L.1 = .exc e)) := by
  subst hb hff hT
  rw [gcProgram_ok hr hu hf] at hL
  refine ⟨fun l1 h1 => ?_, fun l1 l2 hh h2 h3 => ?_⟩
  · rw [genWork_listFlags (A := asked P is g1 g2 f1 f2 f3) l1 h1 dc d1 d2] at hL
    subst hL
    obtain ⟨k1, _, k3, _⟩ := C63_main_list (W := genSiteOf P (asked P is g1 g2 f1 f2 f3) dg dc d1 d2) files input P.out P.loc (.inl l1)
    exact ⟨k3, k1 l1⟩
  · rw [genWork_listConfigs (A := asked P is g1 g2 f1 f2 f3) l1 l2 hh h2 h3 dg d2] at hL
    subst hL
    obtain ⟨_, k2, k3, _⟩ := C63_main_list (W := genSiteOf P (asked P is g1 g2 f1 f2 f3) dg dc d1 d2) files input P.out P.loc (.inr l2)
    exact ⟨k3, k2 l1⟩

/-- C74: nothing happens if the command line cannot be read or calls for help (SystemExit, whatever gen-config.ini says) or if gen-config.ini
does not name five files that are there (ValueError). If a file that has to be read is not there, the program fails and changes nothing, except
that the temporary file for the options is empty if there would be options in it. -/
theorem C74_nothing (hL : L = gcProgram P argv files input) :
    (((∀ w ∈ argv, ¬ Odd w) ∧ (¬ ∃ is, Reading P.neg gcUsage argv is ∧ Cli.Usable is)) ∨
        (∃ is, Reading P.neg gcUsage argv is ∧ ¬ Cli.Usable is) → L = (.exc .systemExit, files)) ∧
    (Reading P.neg gcUsage argv is → Cli.Usable is → TopDoc P.fuel (P.disk files) P.gcIni true genConfigSections [] doc → Anchored P.gcIni →
      ¬ NamesFiles (baseEnv (confOf doc) 0) (P.disk files) P.gcIni true genConfigFiles → L = (.exc .valueError, files)) ∧
    (Reading P.neg gcUsage argv is → Cli.Usable is → switched py!"list_config_flags" is = false → switched py!"list_configs" is = false →
      lastValue py!"save_load_env_args" is = none → GcFiles P (P.disk files) is g1 g2 f1 f2 f3 doc →
      Hands P (P.disk files) ((wordsOf is).headD []) f1 f2 f3 le → (∃ p ∈ [g1, g2, f1, f2], (P.disk files p).isFile = false) →
      L.1 ≠ .ok () ∧ (lastValue py!"cmake_fragment" is ≠ none → L.2 = files) ∧
        (lastValue py!"cmake_fragment" is = none → OnlyChanged files L.2 P.out [])) := by
  subst hL
  refine ⟨fun hc => ?_, fun hr hu hd ha hn => ?_, fun hr hu l1 l2 l3 hf hh ha => ?_⟩
  · unfold gcProgram
    rw [C72_genconfig_refused _ hc]
  · have := (C72_genconfig_files (n := P.fuel) (fs := P.disk files) (resolve := P.resolve) ha []
      (fun fs0 h => by cases h; exact (readIni_newOn _ P.gcIni).trans (readIni_doc hd.hasDoc)) hd.fuel hd.apart hd.sections hr hu).2 hn
    unfold gcProgram
    rw [show accessAll P.fuel P.gcIni [] GCTop.new = GCTop.new from rfl] at this
    rw [this]
  · have e1 : (asked P is g1 g2 f1 f2 f3).saveArgs = none := by show target P _ is = none; unfold Cli.target; rw [l3]; rfl
    rw [gcProgram_ok hr hu hf]
    obtain ⟨k1, k2⟩ := genWork_absent (A := asked P is g1 g2 f1 f2 f3) (j := Job.new (asked P is g1 g2 f1 f2 f3) files input) l1 l2 e1 hh ha
    refine ⟨k1, fun hne => ?_, fun he => ?_⟩
    · cases hx : lastValue py!"cmake_fragment" is with
      | none => exact absurd hx hne
      | some x =>
        rw [show (asked P is g1 g2 f1 f2 f3).fragment = some (P.key (P.resolve x)) by show target P _ is = _; unfold Cli.target; rw [hx]; rfl] at k2
        exact k2
    · rw [show (asked P is g1 g2 f1 f2 f3).fragment = none by show target P _ is = _; unfold Cli.target; rw [he]; rfl] at k2
      dsimp only at k2 ⊢
      rw [k2]
      exact onlyChanged_set ..

/-- The words that gen-config.sh puts behind the others for its second call. -/
theorem saved {sv : Str} (hp : Cli.Plain P.neg gcUsage sv) (hr : Reading P.neg gcUsage argv is) (hu : Cli.Usable is) :
    ∃ js, Reading P.neg gcUsage (argv ++ [py!"--save-load-env-args", sv]) js ∧ Cli.Usable js ∧ wordsOf js = wordsOf is ∧
      (∀ d, d ≠ py!"save_load_env_args" → switched d js = switched d is ∧ lastValue d js = lastValue d is) ∧
      lastValue py!"save_load_env_args" js = some sv := by
  let o : Opt := ⟨[py!"--save-load-env-args"], py!"save_load_env_args", .store⟩
  have hn : Named gcUsage py!"--save-load-env-args" o := ⟨by decide +kernel, by decide +kernel⟩
  have hw : wordsOf (is ++ [Item.act o (some sv)]) = wordsOf is := by rw [wordsOf_append]; exact List.append_nil _
  refine ⟨is ++ [.act o (some sv)], hr.append (.next (.inl hn) rfl hp .done), ⟨hw ▸ hu.1, fun o' v hm => ?_⟩, hw, fun d hd => ⟨?_, ?_⟩, ?_⟩
  · rcases List.mem_append.1 hm with hm | hm
    · exact hu.2 o' v hm
    · rw [List.mem_singleton] at hm; cases hm; decide
  · rw [switched_append, switched, decide_eq_false (show o.dest ≠ d from fun h => hd h.symm)]
    exact Bool.or_false _
  · rw [lastValue_append]
    show Option.or (if o.dest = d then some sv else none) _ = _
    rw [if_neg (show o.dest ≠ d from fun h => hd h.symm)]
    rfl
  · rw [lastValue_append]
    rfl

theorem fileOption_saved {js : List Cli.Item}
    (h : ∀ d, d ≠ py!"save_load_env_args" → switched d js = switched d is ∧ lastValue d js = lastValue d is) :
    fileOption P.resolve js = fileOption P.resolve is := by
  funext ⟨s, k⟩
  unfold fileOption
  rw [(h py!"supported_config_flags_file" (by decide +kernel)).2, (h py!"config_specs_file" (by decide +kernel)).2,
    (h py!"supported_systems_file" (by decide +kernel)).2, (h py!"supported_envs_file" (by decide +kernel)).2,
    (h py!"environment_specs_file" (by decide +kernel)).2]

/-- The call of load_env.py that gen_config.py hands over, as load-env.sh makes it. -/
theorem handed_reads {A : GenArgs} {loc : Str} (hp : Cli.Plain P.neg leUsage loc)
    (h : Hands P (P.disk files) A.build A.systemsFile A.envsFile A.specsFile le) :
    ∃ js, Reading P.neg leUsage (py!"--load-matching-env-location" :: loc :: loadEnvArgs A) js ∧ Cli.Usable js ∧
      (wordsOf js).headD [] = A.build ∧ switched py!"force" js = A.force ∧ switched py!"list_envs" js = false ∧ lastValue py!"output" js = none ∧
      lastValue py!"load_matching_env_location" js = some loc ∧
      LeFiles P (P.disk files) js A.systemsFile A.envsFile A.specsFile le := by
  have hl := (C72_handover (resolve := P.resolve) (neg := P.neg) A (h.files _ (by simp)).1 (h.files _ (by simp)).1 (h.files _ (by simp)).1).2 h.build
  obtain ⟨is, r, u, m⟩ := (C72_loadenv _).1 hl
  have no : ∀ {x : Option Str}, none = x.map P.resolve → x = none := fun {x} h => by cases x <;> simp_all
  have m1 : lastValue py!"load_matching_env_location" is = none := no (congrArg LeArgs.location m)
  have m2 : lastValue py!"output" is = none := no (congrArg LeArgs.output m)
  obtain ⟨js, r1, r2, r3, r4, r5⟩ := located hp r u m1
  have hfo := fileOption_congr (resolve := P.resolve) r4
  have k1 : fileOption P.resolve js (py!"load-env", py!"supported-systems") = some (P.resolve A.systemsFile) := hfo ▸ (congrArg LeArgs.systems m).symm
  have k2 : fileOption P.resolve js (py!"load-env", py!"supported-envs") = some (P.resolve A.envsFile) := hfo ▸ (congrArg LeArgs.envs m).symm
  have k3 : fileOption P.resolve js (py!"load-env", py!"environment-specs") = some (P.resolve A.specsFile) := hfo ▸ (congrArg LeArgs.specs m).symm
  refine ⟨js, r1, r2, ?_, ?_, ?_, ?_, r5, h.top, ?_, ?_, ?_⟩
  · rw [r3]; exact (congrArg LeArgs.build m).symm
  · rw [(r4 _ (by decide +kernel)).1]; exact (congrArg LeArgs.force m).symm
  · rw [(r4 _ (by decide +kernel)).1]; exact (congrArg LeArgs.listEnvs m).symm
  · rw [(r4 _ (by decide +kernel)).2]; exact m2
  · exact .inl ⟨_, k1, (h.files _ (by simp)).2.symm⟩
  · exact .inl ⟨_, k2, (h.files _ (by simp)).2.symm⟩
  · exact .inl ⟨_, k3, (h.files _ (by simp)).2.symm⟩

/-- C74, from the words of the user to CMake: `source gen-config.sh --ci-mode ... <build name> <source>`, where the scripts start
gen_config.py and load_env.py, and the files say `doc`, `le`, `dg`, `dc`, `d1`, `d2` and `d3`. CMake is started with the options that
are generated for the configuration of the build name (and a backslash between each two of them) and the path to the source, in the
environment that the actions of the environment section make of the one that there was; the shell keeps that environment, and
gen-config.sh returns 0. -/
theorem C74_source {W : Machine} {s : Shell} {init ws : List Str} {tools : Bash.Tools} {S : Site} {d sv rc : Str} {env1 : Environ} {A : GenArgs}
    {F F2 : Dict Str Str}
    (hfit : FitGc W s) (hloaded : s.get py!"LOAD_ENV_INTERACTIVE_MODE" = []) (hdir : Solid W.loadDir) (hrandom : Solid W.random)
    (hloc : P.loc = userFile (s.get py!"USER") py!".bash_cmake_args_loc") (hsv : sv = userFile (s.get py!"USER") py!".load_env_args")
    (henv1 : env1 = exportedEnv s.environ P.out (some d)) (hpy : W.python env1 = some false)
    (hh : ¬ Mentioned py!"--help" (init ++ [d])) (hd : d ≠ []) (hds : Solid d) (hdd : W.isDir d = true)
    (hpat : ∀ a ∈ init, NoPattern a) (hpass : Passed init ws)
    -- the programs
    (hgp : HasGenConfig W P input) (hlp : HasLoadEnv W P) (hload : W.load = source tools P.sys.bashHeader)
    -- the command line
    (hr : Reading P.neg gcUsage ws is) (hu : Cli.Usable is) (l1 : switched py!"list_config_flags" is = false)
    (l2 : switched py!"list_configs" is = false) (l3 : lastValue py!"save_load_env_args" is = none) (l4 : lastValue py!"cmake_fragment" is = none)
    (l5 : switched py!"ci_mode" is = true) (hb : b = (wordsOf is).headD []) (hff : f = switched py!"force" is)
    -- the files
    (hf : GcFiles P (P.disk s.files) is g1 g2 f1 f2 f3 doc) (hha : Hands P (P.disk s.files) b f1 f2 f3 le)
    (h1 : HasDoc (P.disk s.files) g1 dg) (h2 : HasDoc (P.disk s.files) g2 dc) (h3 : HasDoc (P.disk s.files) f1 d1) (h4 : HasDoc (P.disk s.files) f2 d2)
    (h5 : HasDoc (P.disk s.files) f3 d3) (hT : T = toolOf P dg dc d1 d2) (hS : S = siteOf P f2 d1 d2 d3) (hA : A = asked P is g1 g2 f1 f2 f3)
    (hw : ∀ x ∈ [b, f1, f2, f3], OneWord x ∧ NoPattern x)
    -- the paths
    (hkl : P.key (P.resolve (location W)) = location W) (hks : P.key (P.resolve sv) = sv)
    (hapart : ∀ p ∈ [P.gcIni, P.leIni, f1, f2, f3], P.key p ∉ [P.out, P.loc, sv])
    (hout : Solid P.out) (hone : P.out ≠ []) (htmp : ScriptPath P.tmp) (hrc : RcOf P.tmp rc)
    (hdis : P.out ≠ P.loc ∧ P.out ≠ sv ∧ P.out ≠ P.tmp ∧ P.out ≠ location W ∧ P.out ≠ rc ∧ P.tmp ≠ location W)
    -- the configuration
    {c : Str} {os : List Str} (hc : Target T b f c) (hos : P.gen (confOf dc) c py!"bash" = .ok os)
    (how : ∀ w ∈ os, OneWord w) (hop : ∀ w ∈ os, NoPattern w)
    -- the environment
    (hn : NoHookOptions S.env) (hclean : ∀ q l, EnvironmentIs S.tool b f q → EnvActions S q l → ∀ x ∈ l, Clean x)
    (hport : ∀ q l, EnvironmentIs S.tool b f q → EnvActions S q l → PortableRun S.sys tools env1 l)
    (hplain : ∀ q, EnvironmentIs S.tool b f q → KW.Spec.PlainName q)
    (hF : F = (gcProgram P ws s.files input).2) (hF2 : F2 = (gcProgram P (ws ++ [py!"--save-load-env-args", sv]) F input).2)
    (hok : (leProgram P (py!"--load-matching-env-location" :: location W :: loadEnvArgs A) env1 F2).outcome = .ok ())
    (hkeep : ∀ q l ms env', EnvironmentIs S.tool b f q → EnvActions S q l → Program S.sys l ms → Goes ms env1 (.ok ()) env' →
      Hidden env' ∧ Solid ((with_ s env').get py!"USER") ∧ Dict.get? env' py!"cmake_args_file" = some P.out ∧ Dict.get? env' py!"path_to_src" = some d) :
    ∃ q l ms env' env2 fs s', EnvironmentIs S.tool b f q ∧ EnvActions S q l ∧ Program S.sys l ms ∧ Goes ms env1 (.ok ()) env' ∧
      env2 = Dict.set env' py!"LOADED_ENV_NAME" q ∧ Between py!"\\" os fs ∧ genConfig W (init ++ [d]) s = (.ok 0, s') ∧
      s'.started = s.started ++ [⟨genCall W ws, s.environ, s.helper⟩, ⟨genCall W (ws ++ [py!"--save-load-env-args", sv]), env1, true⟩,
        ⟨pythonCall W (loadEnvArgs A), env1, true⟩, ⟨py!"cmake" :: (fs ++ [d]), env2, true⟩] ∧
      (∀ x, x ∉ genConfigNames → Dict.get? s'.environ x = Dict.get? env2 x) ∧ (∀ x ∈ genConfigNames, s'.find x = none) ∧
      (∀ x, x ∉ genConfigNames → x ∉ loadEnvNames → Dict.get? s'.vars x = Dict.get? s.vars x) ∧ s'.helper = false := by
  have hlocP : Cli.Plain P.neg leUsage (location W) := .inl (by simp [location])
  have hsvP : Cli.Plain P.neg gcUsage sv := .inl (by subst hsv; simp [userFile])
  have hA1 : A.saveArgs = none := by subst hA; show target P _ is = none; unfold Cli.target; rw [l3]; rfl
  have hA2 : A.fragment = none := by subst hA; show target P _ is = none; unfold Cli.target; rw [l4]; rfl
  have hA3 : A.build = b := by subst hA; exact hb.symm
  have hA4 : A.force = f := by subst hA; exact hff.symm
  have hA5 : A.systemsFile = f1 ∧ A.envsFile = f2 ∧ A.specsFile = f3 ∧ A.flagsFile = g1 ∧ A.configsFile = g2 := by subst hA; exact ⟨rfl, rfl, rfl, rfl, rfl⟩
  have hA6 : A.listFlags = false ∧ A.listConfigs = false ∧ A.ciMode = true := by subst hA; exact ⟨l1, l2, l5⟩
  obtain ⟨e1, e2, e3, e4, e5⟩ := hA5
  -- the first run
  have hhA : Hands P (P.disk s.files) A.build A.systemsFile A.envsFile A.specsFile le := by rw [hA3, e1, e2, e3]; exact hha
  have hr1 := gcProgram_ok (input := input) hr hu hf
  rw [← hA, genWork_flags hA6.1 hA6.2.1 hA1 hA2 hhA (e4 ▸ h1) (e5 ▸ h2) (e1 ▸ h3) (e2 ▸ h4)] at hr1
  have p1 := hgp ws s.environ s.files
  have p1' := p1.2 is hr hu l2 l1 l4
  have p1 := p1.1
  rw [hr1] at p1 p1'
  have hrun1 : RunsGen W (genCall W ws) s.environ s.files (genSiteOf P A dg dc d1 d2) input P.out P.loc := ⟨p1, p1'⟩
  have hTe : (genSiteOf P A dg dc d1 d2).tool = T := hT.symm
  obtain ⟨m1, _⟩ := C63_main_flags (W := genSiteOf P A dg dc d1 d2) s.files input P.out P.loc hdis.1 hA6.1 hA6.2.1 hA1 hA2
  have hc' : Target (genSiteOf P A dg dc d1 d2).tool A.build A.force c := by rw [hTe, hA3, hA4]; exact hc
  obtain ⟨_, k2, k3, k4⟩ := m1 c os _ hc' hos (joinStr_separated _ _)
  have hFe : F = (Job.main (genSiteOf P A dg dc d1 d2) P.out P.loc (Job.new A s.files input)).2.files := by rw [hF, hr1]
  have k2 := hFe ▸ k2
  have k3 := hFe ▸ k3
  have k4 := hFe ▸ k4
  have keep1 : ∀ k, k ∉ [P.out, P.loc] → Dict.get? F k = Dict.get? s.files k := fun k hk => k4 k (fun h => hk (by simp [h])) (fun h => hk (by simp [h]))
  have there1 : ∀ k ∈ [P.out, P.loc], ∃ t, Dict.get? F k = some t := fun k hk => by
    rcases List.mem_cons.1 hk with rfl | hk
    · exact ⟨_, k2⟩
    · rw [List.mem_singleton] at hk; subst hk; exact ⟨_, k3⟩
  have ap1 : ∀ p ∈ [P.gcIni, P.leIni, f1, f2, f3], P.key p ∉ [P.out, P.loc] := fun p hp h => hapart p hp (by
    rcases List.mem_cons.1 h with h | h
    · exact h ▸ List.mem_cons_self ..
    · rw [List.mem_singleton] at h; rw [h]; simp)
  -- the second run
  obtain ⟨js, r1, r2, r3, r4, r5⟩ := saved hsvP hr hu
  have hfo := fileOption_saved (P := P) r4
  have hfj : GcFiles P (P.disk F) js g1 g2 f1 f2 f3 doc :=
    ⟨topDoc_keep keep1 there1 (ap1 _ (by simp)) hf.toTopDoc, hf.anchored, hfo ▸ hf.flags, hfo ▸ hf.configs, hfo ▸ hf.systems, hfo ▸ hf.envs, hfo ▸ hf.specs⟩
  have hAj : asked P js g1 g2 f1 f2 f3 = { A with saveArgs := some sv } := by
    subst hA
    unfold asked Cli.target
    rw [r3, r5, (r4 py!"force" (by decide +kernel)).1, (r4 py!"ci_mode" (by decide +kernel)).1, (r4 py!"list_configs" (by decide +kernel)).1,
      (r4 py!"list_config_flags" (by decide +kernel)).1, (r4 py!"cmake_fragment" (by decide +kernel)).2, (r4 py!"yes" (by decide +kernel)).1]
    rw [show Option.map (fun x => P.key (P.resolve x)) (some sv) = some sv from congrArg some hks]
  have hr2 := gcProgram_ok (input := input) r1 r2 hfj
  rw [hAj, genWork_save (A := { A with saveArgs := some sv }) hA6.1 hA6.2.1 rfl dg dc d1 d2] at hr2
  have p2 := hgp (ws ++ [py!"--save-load-env-args", sv]) env1 F
  have p2' := p2.2 js r1 r2 ((r4 _ (by decide +kernel)).1.trans l2) ((r4 _ (by decide +kernel)).1.trans l1) ((r4 _ (by decide +kernel)).2.trans l4)
  have p2 := p2.1
  rw [hr2] at p2 p2'
  have hrun2 : RunsGen W (genCall W (ws ++ [py!"--save-load-env-args", sv])) env1 F
      { genSiteOf P A dg dc d1 d2 with args := { (genSiteOf P A dg dc d1 d2).args with saveArgs := some sv } } input P.out P.loc := ⟨p2, p2'⟩
  obtain ⟨_, k5, _⟩ := C63_main_save (W := genSiteOf P { A with saveArgs := some sv } dg dc d1 d2) F input P.out P.loc sv _ hA6.1 hA6.2.1 rfl (joinStr_separated _ _)
  have hF2e : F2 = (Job.main (genSiteOf P { A with saveArgs := some sv } dg dc d1 d2) P.out P.loc (Job.new { A with saveArgs := some sv } F input)).2.files := by
    rw [hF2, hr2]
  have k5 := hF2e ▸ k5
  have keep2 : ∀ k, k ∉ [P.out, P.loc, sv] → Dict.get? F2 k = Dict.get? s.files k := fun k hk =>
    (k5.2 k fun h => hk (by simp [h])).trans (keep1 k fun h => hk (by
      rcases List.mem_cons.1 h with h | h
      · rw [h]; simp
      · rw [List.mem_singleton] at h; rw [h]; simp))
  have there2 : ∀ k ∈ [P.out, P.loc, sv], ∃ t, Dict.get? F2 k = some t := fun k hk => by
    by_cases hks : k = sv
    · subst hks; exact ⟨_, k5.1⟩
    · rw [k5.2 k hks]
      exact there1 k (by
        rcases List.mem_cons.1 hk with h | h
        · rw [h]; simp
        · rcases List.mem_cons.1 h with h | h
          · rw [h]; simp
          · rw [List.mem_singleton] at h; exact absurd h hks)
  -- load_env.py
  have hha2 : Hands P (P.disk F2) A.build A.systemsFile A.envsFile A.specsFile le :=
    ⟨topDoc_keep keep2 there2 (hapart _ (by simp)) hhA.top, hhA.build, hhA.files⟩
  obtain ⟨ks, q1, q2, q3, q4, q5, q6, q7, q8⟩ := handed_reads hlocP hha2
  have hp := leProgram_main (environ := env1) q1 q2 q5 q8 (hasDoc_keep keep2 (hapart _ (by rw [e1]; simp)) (e1 ▸ h3))
    (hasDoc_keep keep2 (hapart _ (by rw [e2]; simp)) (e2 ▸ h4)) (hasDoc_keep keep2 (hapart _ (by rw [e3]; simp)) (e3 ▸ h5))
  rw [q3, q4, e2, ← hS, show Cli.target P py!"output" ks = none by unfold Cli.target; rw [q6]; rfl,
    show Cli.target P py!"load_matching_env_location" ks = some (location W) by unfold Cli.target; rw [q7]; exact congrArg some hkl] at hp
  have p3 := hlp (py!"--load-matching-env-location" :: location W :: loadEnvArgs A) env1 F2
  have p3' := p3.2 ks q1 q2 q5
  have p3 := p3.1
  rw [hp] at p3 p3' hok
  have hrun3 : RunsLoadEnv W (pythonCall W (loadEnvArgs A)) env1 F2 S A.build A.force P.tmp (location W) := ⟨p3, p3'⟩
  have hsys : S.sys = P.sys := by rw [hS]; rfl
  rw [← hA3, ← hA4] at hclean hport hplain hkeep
  have hm := C61_main (W := S) (b := A.build) (f := A.force) (environ := env1) (files := F2) hn hclean P.tmp none (some (location W))
  have happ : App.main S false P.tmp none (some (location W)) (App.new A.build A.force env1 F2) =
      (.ok (), (App.main S false P.tmp none (some (location W)) (App.new A.build A.force env1 F2)).2) := Prod.ext hok rfl
  obtain ⟨q, l, ms, env2, fs, s', g⟩ := C66_program (G := genSiteOf P A dg dc d1 d2) (S := S) (tools := tools) (out := P.out) (tmp := P.tmp) (loc := P.loc)
    (sv := sv) (rc := rc) (d := d) (input := input) (input2 := input) (F := F) (F2 := F2) hfit hloaded hdir hrandom hloc hsv henv1 hpy hh hd hds hdd hpat hpass
    hrun1 (by rw [hF, hr1]; exact p1.symm) (by rw [hF2, hr2]; exact p2.symm) hrun2 hrun3 (hsys ▸ hload) hA6.1 hA6.2.1 hA1 hA2 hA6.2.2
    (by show OneWord A.build ∧ OneWord A.systemsFile ∧ OneWord A.envsFile ∧ OneWord A.specsFile; rw [hA3, e1, e2, e3]; exact ⟨(hw _ (by simp)).1, (hw _ (by simp)).1, (hw _ (by simp)).1, (hw _ (by simp)).1⟩)
    (by show NoPattern A.build ∧ NoPattern A.systemsFile ∧ NoPattern A.envsFile ∧ NoPattern A.specsFile; rw [hA3, e1, e2, e3]; exact ⟨(hw _ (by simp)).2, (hw _ (by simp)).2, (hw _ (by simp)).2, (hw _ (by simp)).2⟩)
    hout hone htmp hrc hdis hc' hos how hop hn hclean hport hplain happ (by
      rcases hm with ⟨q, l, ms, ls, env', g1, g2, g3, g4, _, _, g7, _⟩ | ⟨g1, _⟩
      · rw [g7]; exact hkeep q l ms env' g1 g2 g3 g4
      · exact absurd hok (g1 ()))
  rw [← hA3, ← hA4]
  exact ⟨q, l, ms, _, env2, fs, s', g⟩

end

/-! ### A concrete case -/

namespace ProgExample
open IniExample

/-- gen-config.ini and the two files of gen_config.py; the other files are those of C73. -/
def genDoc : Doc :=
  [(py!"gen-config", [(py!"supported-config-flags", some [py!"flags.ini"]), (py!"config-specs", some [py!"/c/config-specs.ini"])]),
   (py!"load-env", [(py!"supported-systems", some [py!"systems.ini"]), (py!"supported-envs", some [py!"envs.ini"]),
     (py!"environment-specs", some [py!"specs.ini"])])]
def flagsDoc : Doc :=
  [(py!"configure-flags", [(py!"use-mpi", some [py!"SELECT_ONE", py!"mpi      # the default", py!"no-mpi"]),
    (py!"packages", some [py!"SELECT_MANY", py!"none", py!"teko", py!"belos"])])]
def configsDoc : Doc :=
  [(py!"COMMON", []), (py!"machine-1_gnu-9-openmpi_mpi_none", []), (py!"machine-2_arm-20_no-mpi_belos_teko", [])]

def place1 : Place := { place0 with out := py!"/tmp/jo/args7", loc := py!"/tmp/jo/.bash_cmake_args_loc" }

def inis1 : Dict Str Str :=
  inis ++ [(py!"/c/gen-config.ini", docText genDoc), (py!"/c/flags.ini", docText flagsDoc), (py!"/c/config-specs.ini", docText configsDoc)]

theorem hasGen (fs : Dict Str Str) : HasDoc (place1.disk (inis1 ++ fs)) py!"/c/gen-config.ini" genDoc := hasDoc (by decide +kernel) rfl
theorem hasFlags (fs : Dict Str Str) : HasDoc (place1.disk (inis1 ++ fs)) py!"/c/flags.ini" flagsDoc := hasDoc (by decide +kernel) rfl
theorem hasConfigs (fs : Dict Str Str) : HasDoc (place1.disk (inis1 ++ fs)) py!"/c/config-specs.ini" configsDoc := hasDoc (by decide +kernel) rfl
theorem hasSystems (fs : Dict Str Str) : HasDoc (place1.disk (inis1 ++ fs)) py!"/c/systems.ini" systemsDoc := hasDoc (by decide +kernel) rfl
theorem hasEnvs (fs : Dict Str Str) : HasDoc (place1.disk (inis1 ++ fs)) py!"/c/envs.ini" envsDoc := hasDoc (by decide +kernel) rfl
theorem hasSpecs (fs : Dict Str Str) : HasDoc (place1.disk (inis1 ++ fs)) py!"/c/specs.ini" specsDoc := hasDoc (by decide +kernel) rfl

def genOptions : Options := [(py!"supported-config-flags", some py!"flags.ini"), (py!"config-specs", some py!"/c/config-specs.ini")]
def leOptions : Options :=
  [(py!"supported-systems", some py!"systems.ini"), (py!"supported-envs", some py!"envs.ini"), (py!"environment-specs", some py!"specs.ini")]

theorem gen_sound1 : Sound (baseEnv (confOf genDoc) 0) py!"gen-config" ∧ Resolved (baseEnv (confOf genDoc) 0) py!"gen-config" genOptions :=
  sound_computed (n := 10) (by decide) (by decide) (by decide +kernel) (by decide +kernel)

theorem gen_sound2 : Sound (baseEnv (confOf genDoc) 0) py!"load-env" ∧ Resolved (baseEnv (confOf genDoc) 0) py!"load-env" leOptions :=
  sound_computed (n := 10) (by decide) (by decide) (by decide +kernel) (by decide +kernel)

theorem gen_top (fs : Dict Str Str) : TopDoc 10 (place1.disk (inis1 ++ fs)) py!"/c/gen-config.ini" true genConfigSections genConfigFiles genDoc := by
  refine ⟨hasGen fs, by decide, fun h => absurd h (by decide +kernel), fun s hs => ?_, fun s k hk => ?_⟩
  · simp only [genConfigSections, List.mem_cons, List.not_mem_nil, or_false] at hs
    rcases hs with rfl | rfl
    · exact ⟨by decide +kernel, gen_sound1.1⟩
    · exact ⟨by decide +kernel, gen_sound2.1⟩
  · simp only [genConfigFiles, List.mem_cons, List.not_mem_nil, or_false, Prod.mk.injEq] at hk
    rcases hk with ⟨rfl, rfl⟩ | ⟨rfl, rfl⟩ | ⟨rfl, rfl⟩ | ⟨rfl, rfl⟩ | ⟨rfl, rfl⟩
    · exact ⟨_, gen_sound1.2, (goodPath_iff ..).2 ⟨_, rfl, by decide, fun _ => rfl⟩⟩
    · exact ⟨_, gen_sound1.2, (goodPath_iff ..).2 ⟨_, rfl, by decide, fun _ => rfl⟩⟩
    · exact ⟨_, gen_sound2.2, (goodPath_iff ..).2 ⟨_, rfl, by decide, fun _ => rfl⟩⟩
    · exact ⟨_, gen_sound2.2, (goodPath_iff ..).2 ⟨_, rfl, by decide, fun _ => rfl⟩⟩
    · exact ⟨_, gen_sound2.2, (goodPath_iff ..).2 ⟨_, rfl, by decide, fun _ => rfl⟩⟩

theorem noGenFiles {is : List Cli.Item} (h : (lastValue py!"supported_systems_file" is, lastValue py!"supported_envs_file" is,
    lastValue py!"environment_specs_file" is, lastValue py!"supported_config_flags_file" is, lastValue py!"config_specs_file" is) = (none, none, none, none, none))
    (x : Str × Str) : fileOption resolve0 is x = none := by
  simp only [Prod.mk.injEq] at h
  obtain ⟨h1, h2, h3, h4, h5⟩ := h
  obtain ⟨s, k⟩ := x
  unfold fileOption
  dsimp only
  rw [h1, h2, h3, h4, h5]
  repeat (split; rfl)
  rfl

theorem gen_chosen {resolve : Str → Str} {g : Str × Str → Option Str} {sec k a : Str} {d : Options} (hd : Resolved (baseEnv (confOf genDoc) 0) sec d)
    (hg : g (sec, k) = none) {v : Str} (hv : Dict.get? d k = some (some v))
    (ha : a = resolve (PPath.ofStr (place py!"/c/gen-config.ini" v)).toStr) :
    CPE.Spec.Chosen (baseEnv (confOf genDoc) 0) py!"/c/gen-config.ini" resolve g sec k a :=
  .inr ⟨hg, _, v, _, _, hd, hv, (pointsTo_iff ..).2 rfl, (normal_iff ..).2 rfl, ha⟩

theorem gen_files (fs : Dict Str Str) {is : List Cli.Item} (h : ∀ x, fileOption resolve0 is x = none) :
    GcFiles place1 (place1.disk (inis1 ++ fs)) is py!"/c/flags.ini" py!"/c/config-specs.ini" py!"/c/systems.ini" py!"/c/envs.ini" py!"/c/specs.ini" genDoc :=
  ⟨gen_top fs, .inl ⟨_, rfl⟩, gen_chosen gen_sound1.2 (h _) rfl (by decide +kernel), gen_chosen gen_sound1.2 (h _) rfl (by decide +kernel),
    gen_chosen gen_sound2.2 (h _) rfl (by decide +kernel), gen_chosen gen_sound2.2 (h _) rfl (by decide +kernel), gen_chosen gen_sound2.2 (h _) rfl (by decide +kernel)⟩

theorem gen_hands (fs : Dict Str Str) :
    Hands place1 (place1.disk (inis1 ++ fs)) py!"gnu_teko" py!"/c/systems.ini" py!"/c/envs.ini" py!"/c/specs.ini" topDoc := by
  refine ⟨top_of rfl, .inl (by decide), fun f hf => ?_⟩
  simp only [List.mem_cons, List.not_mem_nil, or_false] at hf
  rcases hf with rfl | rfl | rfl <;> exact ⟨.inl (by decide), rfl⟩

/-- `--ci-mode gnu_teko`, and the same with another option. -/
def ciItem : Cli.Item := .act ⟨[py!"--ci-mode"], py!"ci_mode", .flag true⟩ none
def ciItems : List Cli.Item := [ciItem, .word py!"gnu_teko"]
def moreItems (o : Opt) (v : Option Str) : List Cli.Item := .act o v :: ciItems

theorem ciReading : Reading noNeg gcUsage [py!"--ci-mode", py!"gnu_teko"] ciItems :=
  .flag (.inl ⟨by decide +kernel, by decide +kernel⟩) (by decide) (.word (.inl (by decide)) .done)

theorem ciUsable : Cli.Usable ciItems := ⟨by decide, fun o v h => by
  rcases List.mem_cons.1 h with h | h
  · cases h; decide
  · rw [List.mem_singleton] at h; cases h⟩

theorem moreUsable {o : Opt} {v : Option Str} (ho : o.act ≠ .help) : Cli.Usable (moreItems o v) := ⟨ciUsable.1, fun o' v' h => by
  rcases List.mem_cons.1 h with h | h
  · cases h; exact ho
  · exact ciUsable.2 o' v' h⟩

def fragmentOpt : Opt := ⟨[py!"--cmake-fragment"], py!"cmake_fragment", .store⟩
def saveOpt : Opt := ⟨[py!"--save-load-env-args"], py!"save_load_env_args", .store⟩
def listOpt : Opt := ⟨[py!"-l", py!"--list-configs"], py!"list_configs", .flag true⟩

/-- The hypotheses of C74_flags, C74_fragment, C74_save and C74_list are met. -/
example (fs : Dict Str Str) (input : List Str) := C74_flags (P := place1) (input := input) ciReading ciUsable rfl rfl rfl rfl (gen_files fs (noGenFiles rfl))
  (gen_hands fs) (hasFlags fs) (hasConfigs fs) (hasSystems fs) (hasEnvs fs) rfl rfl rfl (by decide +kernel) rfl

example (fs : Dict Str Str) (input : List Str) := C74_fragment (P := place1) (input := input) (argv := [py!"--cmake-fragment", py!"x", py!"--ci-mode", py!"gnu_teko"])
  (is := moreItems fragmentOpt (some py!"x"))
  (.next (.inl ⟨by decide +kernel, by decide +kernel⟩) rfl (.inl (by decide)) ciReading) (moreUsable (by decide)) rfl rfl rfl rfl (gen_files fs (noGenFiles rfl))
  (gen_hands fs) (hasFlags fs) (hasConfigs fs) (hasSystems fs) (hasEnvs fs) rfl rfl rfl rfl rfl

example (fs : Dict Str Str) (input : List Str) := C74_save (P := place1) (input := input) (argv := [py!"--save-load-env-args", py!"x", py!"--ci-mode", py!"gnu_teko"])
  (is := moreItems saveOpt (some py!"x"))
  (.next (.inl ⟨by decide +kernel, by decide +kernel⟩) rfl (.inl (by decide)) ciReading) (moreUsable (by decide)) rfl rfl rfl (gen_files fs (noGenFiles rfl)) rfl

example (fs : Dict Str Str) (input : List Str) : (gcProgram place1 [py!"-l", py!"--ci-mode", py!"gnu_teko"] (inis1 ++ fs) input).2 = inis1 ++ fs :=
  ((C74_list (P := place1) (input := input) (argv := [py!"-l", py!"--ci-mode", py!"gnu_teko"]) (dg := []) (d2 := [])
  (is := moreItems listOpt none)
  (.flag (.inl ⟨by decide +kernel, by decide +kernel⟩) (by decide) ciReading) (moreUsable (by decide)) (gen_files fs (noGenFiles rfl)) rfl rfl rfl rfl).2 rfl rfl
  (gen_hands fs) (hasConfigs fs) (hasSystems fs)).1

/-- The configuration is there. -/
theorem gen_target : Target (toolOf place1 flagsDoc configsDoc systemsDoc envsDoc) py!"gnu_teko" false py!"machine-1_gnu-9-openmpi_mpi_teko" :=
  (C63_target ..).1 (by decide +kernel)

/-- The whole program, computed from the texts of the files. -/
example :
    let L := gcProgram place1 [py!"--ci-mode", py!"gnu_teko"] (inis1 ++ [(py!"y", py!"z")]) []
    L.1 = .ok () ∧ Dict.get? L.2 py!"/tmp/jo/args7" = some py!"-DA=1 \\\n    -DB=2 \\\n    -G=Ninja" ∧
    Dict.get? L.2 py!"/tmp/jo/.bash_cmake_args_loc" = some py!"/tmp/jo/args7" ∧ Dict.get? L.2 py!"y" = some py!"z" := by
  refine ⟨?_, ?_, ?_, ?_⟩ <;> decide +kernel

example :
    Dict.get? (gcProgram place1 [py!"--cmake-fragment=x", py!"gnu_teko"] inis1 []).2 py!"x" = some py!"set(A 1)\nset(B 2)" ∧
    (gcProgram place1 [py!"--cmake-fragment=x", py!"gnu_teko"] (inis1 ++ [(py!"x", py!"old")]) [py!"n"]).1 = .exc .systemExit ∧
    (gcProgram place1 [py!"--cmake-fragment=x", py!"gnu_teko"] (inis1 ++ [(py!"x", py!"old")]) [py!"n"]).2 = inis1 ++ [(py!"x", py!"old")] ∧
    Dict.get? (gcProgram place1 [py!"--save-load-env-args", py!"/w/x", py!"gnu_teko"] inis1 []).2 py!"x" =
      some py!"--supported-systems /c/systems.ini --supported-envs /c/envs.ini --environment-specs /c/specs.ini gnu_teko" ∧
    (gcProgram place1 [py!"gnu_teko"] (inis1.take 6) []).1 = .exc .valueError ∧
    (gcProgram place1 [py!"--config-specs", py!"none.ini", py!"gnu_teko"] inis1 []).1 = .exc .ioError ∧
    (gcProgram place1 [py!"a", py!"b"] [] []).1 = .exc .systemExit := by
  refine ⟨?_, ?_, ?_, ?_, ?_, ?_, ?_⟩ <;> decide +kernel

/-- A file that is not there: the third part of C74_nothing. -/
def specsOpt : Opt := ⟨[py!"--config-specs"], py!"config_specs_file", .store⟩

example : OnlyChanged inis1 (gcProgram place1 [py!"--config-specs", py!"none.ini", py!"--ci-mode", py!"gnu_teko"] inis1 []).2 py!"/tmp/jo/args7" [] :=
  ((C74_nothing (P := place1) (argv := [py!"--config-specs", py!"none.ini", py!"--ci-mode", py!"gnu_teko"]) (files := inis1) (input := [])
    (is := moreItems specsOpt (some py!"none.ini")) (g1 := py!"/c/flags.ini") (g2 := py!"/w/none.ini") (f1 := py!"/c/systems.ini") (f2 := py!"/c/envs.ini")
    (f3 := py!"/c/specs.ini") (doc := genDoc) (le := topDoc) rfl).2.2
    (.next (.inl ⟨by decide +kernel, by decide +kernel⟩) rfl (.inl (by decide)) ciReading) (moreUsable (by decide)) rfl rfl rfl
    ⟨gen_top [], .inl ⟨_, rfl⟩, gen_chosen gen_sound1.2 (by decide +kernel) rfl (by decide +kernel), .inl ⟨_, rfl, by decide +kernel⟩,
      gen_chosen gen_sound2.2 (by decide +kernel) rfl (by decide +kernel), gen_chosen gen_sound2.2 (by decide +kernel) rfl (by decide +kernel),
      gen_chosen gen_sound2.2 (by decide +kernel) rfl (by decide +kernel)⟩
    (gen_hands []) ⟨py!"/w/none.ini", by simp, rfl⟩).2.2 rfl

/-- A machine that runs both programs; `cmake` fails. -/
def machine3 : Machine := { machine1 with
  run := fun argv env files =>
    if argv.take 4 = [py!"python3", py!"-E", py!"-s", py!"/opt/LoadEnv/load_env.py"] then
      let L := leProgram place1 (argv.drop 4) env files
      (match L.outcome with | .ok _ => 0 | _ => 1, L.files)
    else if argv.take 4 = [py!"python3", py!"-E", py!"-s", py!"/opt/GenConfig/gen_config.py"] then
      let L := gcProgram place1 (argv.drop 4) files []
      (match L.1 with | .ok _ => 0 | _ => 1, L.2)
    else (1, files) }

theorem machine3_le : HasLoadEnv machine3 place1 := by
  intro ws env files
  refine ⟨rfl, fun is _ _ _ => ?_⟩
  show (match (leProgram place1 ws env files).outcome with | .ok _ => 0 | _ => 1) = 0 ↔ _
  cases (leProgram place1 ws env files).outcome <;> simp

theorem machine3_gc : HasGenConfig machine3 place1 [] := by
  intro ws env files
  refine ⟨rfl, fun is _ _ _ _ _ => ?_⟩
  show (match (gcProgram place1 ws files []).1 with | .ok _ => 0 | _ => 1) = 0 ↔ _
  cases (gcProgram place1 ws files []).1 <;> simp

def shell3 : Shell := { shell0 with files := inis1 ++ shell0.files }
def files4 : Dict Str Str := (gcProgram place1 [py!"--ci-mode", py!"gnu_teko"] shell3.files []).2
def files5 : Dict Str Str := (gcProgram place1 ([py!"--ci-mode", py!"gnu_teko"] ++ [py!"--save-load-env-args", py!"/tmp/jo/.load_env_args"]) files4 []).2
def asked3 : GenArgs := asked place1 ciItems py!"/c/flags.ini" py!"/c/config-specs.ini" py!"/c/systems.ini" py!"/c/envs.ini" py!"/c/specs.ini"
def left3 : Environ := (leProgram place1 (py!"--load-matching-env-location" :: location machine3 :: loadEnvArgs asked3) env1 files5).environ

theorem left3_only {q : Str} {l : List Action} {ms : List (M Environ Int)} {env' : Environ} (g1 : EnvironmentIs site2.tool py!"gnu_teko" false q)
    (g2 : EnvActions site2 q l) (g3 : Program site2.sys l ms) (g4 : Goes ms env1 (.ok ()) env') : env' = left3 := by
  have hm := C61_main (W := site2) (b := py!"gnu_teko") (f := false) (environ := env1) (files := []) site_noHooks
    (fun _ _ => site2_clean) py!"/tmp/t.sh" none (some (location machine3))
  dsimp only at hm
  rcases hm with ⟨q', l', ms', _, env'', k1, k2, k3, k4, _, _, k7, _⟩ | ⟨k1, _⟩
  · cases site2_only g1
    cases site2_only k1
    cases envActions_unique g2 k2
    cases program_det g3 k3
    rw [goes_det g4 k4, ← k7]
    decide +kernel
  · exact absurd (by decide +kernel) (k1 ())

/-- The hypotheses of C74_source are met. -/
example : ∃ s' fs, genConfig machine3 [py!"--ci-mode", py!"gnu_teko", py!"/src"] shell3 = (.ok 0, s') ∧
    Between py!"\\" [py!"-DA=1", py!"-DB=2", py!"-G=Ninja"] fs ∧
    (s'.started.map (·.argv)).getLast? = some (py!"cmake" :: (fs ++ [py!"/src"])) := by
  obtain ⟨q, l, ms, env', env2, fs, s', h1, h2, h3, h4, h5, h6, h7, h8, _⟩ := C74_source (W := machine3) (s := shell3) (P := place1) (S := site2)
    (tools := exampleTools) (init := [py!"--ci-mode", py!"gnu_teko"]) (ws := [py!"--ci-mode", py!"gnu_teko"]) (d := py!"/src")
    (rc := py!"/tmp/t.rc") (sv := py!"/tmp/jo/.load_env_args") (env1 := env1) (input := []) (F := files4) (F2 := files5) (A := asked3)
    (c := py!"machine-1_gnu-9-openmpi_mpi_teko") (os := [py!"-DA=1", py!"-DB=2", py!"-G=Ninja"])
    ⟨rfl, shell0_fitGc.2, shell0_fitGc.3, shell0_fitGc.4, rfl⟩ (by decide +kernel) (by unfold Solid; decide +kernel) (by unfold Solid; decide +kernel) (by decide +kernel) (by decide +kernel) rfl rfl
    (fun h => absurd ((mentioned_iff _ _).2 h) (by decide +kernel)) (by decide) (by unfold Solid; decide) (by decide +kernel)
    (by unfold NoPattern; decide +kernel) ((passed_iff _ _).2 (by decide +kernel)) machine3_gc machine3_le rfl
    ciReading ciUsable rfl rfl rfl rfl rfl rfl rfl (gen_files _ (noGenFiles rfl)) (gen_hands _) (hasFlags _) (hasConfigs _) (hasSystems _) (hasEnvs _) (hasSpecs _)
    rfl rfl rfl (by unfold OneWord NoPattern; decide +kernel) (by decide +kernel) (by decide +kernel) (by decide +kernel)
    (by unfold Solid; decide) (by decide) ⟨fun c hc => (Bash.bare_iff c).1 (by revert c; decide +kernel), by decide, ⟨py!"/tmp/t", rfl⟩⟩
    ⟨py!"/tmp/t.", 's', 'h', rfl, rfl⟩ (by decide +kernel) gen_target (by decide +kernel) (by unfold OneWord; decide +kernel)
    (by unfold NoPattern; decide +kernel) site_noHooks (fun q l => site2_clean)
    (fun q l hq hl => by
      cases site2_only hq
      cases envActions_unique hl site_actions
      exact env1_portable)
    (fun q hq => by
      cases site2_only hq
      exact fun c hc => (Bash.bare_iff c).1 (by revert c; decide +kernel))
    rfl rfl (by decide +kernel)
    (fun q l ms env' g1 g2 g3 g4 => by
      rw [left3_only g1 g2 g3 g4]
      exact ⟨by unfold Hidden; decide +kernel, by unfold Solid; decide +kernel, by decide +kernel, by decide +kernel⟩)
  refine ⟨s', fs, h7, h6, ?_⟩
  rw [h8]
  rfl

end ProgExample

end CPE.Props
