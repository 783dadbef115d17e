import Verif.Proofs.CommandLine
import Verif.Props.TopLevel
/-
C72: what the command lines of load-env and gen-config mean, and that gen-config hands its command line over to load-env.
-/
namespace CPE.Props
open CPE CPE.KW CPE.Cli
open CPE.Spec hiding Item

section
variable {resolve : Str → Str} {neg : Str → Bool} {argv a b : List Str} {is js : List Item}

/-- C72: load-env accepts a command line if and only if it can be read with at most one build name and without a call for
help, and then it says what is read: an option is on if it is there, and the last value counts. -/
theorem C72_loadenv (x : LeArgs) : leParse resolve neg argv = .ok x ↔
    ∃ is, Reading neg leUsage argv is ∧ Usable is ∧ x = leMeaning resolve is := by
  constructor
  · intro h
    rcases le_else (resolve := resolve) (neg := neg) (argv := argv) with ⟨is, hr, hu⟩ | h' | ⟨h', _⟩
    · rw [le_parse hr hu] at h
      injection h with h
      exact ⟨is, hr, hu, h.symm⟩
    · rw [h'] at h; cases h
    · rw [h'] at h; cases h
  · rintro ⟨is, hr, hu, rfl⟩
    exact le_parse hr hu

/-- C72: the same for gen-config. -/
theorem C72_genconfig (x : GcArgs) : gcParse resolve neg argv = .ok x ↔
    ∃ is, Reading neg gcUsage argv is ∧ Usable is ∧ x = gcMeaning resolve is := by
  constructor
  · intro h
    rcases gc_else (resolve := resolve) (neg := neg) (argv := argv) with ⟨is, hr, hu⟩ | h' | ⟨h', _⟩
    · rw [gc_parse hr hu] at h
      injection h with h
      exact ⟨is, hr, hu, h.symm⟩
    · rw [h'] at h; cases h
    · rw [h'] at h; cases h
  · rintro ⟨is, hr, hu, rfl⟩
    exact gc_parse hr hu

/-- C72: there is no second way to read a command line. -/
theorem C72_one_reading :
    (Reading neg leUsage argv is → Reading neg leUsage argv js → is = js) ∧
    (Reading neg gcUsage argv is → Reading neg gcUsage argv js → is = js) :=
  ⟨Reading.unique le_wf, Reading.unique gc_wf⟩

/-- C72: a command line without odd words that is not accepted ends the program; nothing else can happen. So does one
that can be read but has a second word or calls for help. -/
theorem C72_refused :
    ((∀ w ∈ argv, ¬ Odd w) → (∀ x, leParse resolve neg argv ≠ .ok x) → leParse resolve neg argv = .exc .systemExit) ∧
    ((∀ w ∈ argv, ¬ Odd w) → (∀ x, gcParse resolve neg argv ≠ .ok x) → gcParse resolve neg argv = .exc .systemExit) ∧
    (Reading neg leUsage argv is → ¬ Usable is → leParse resolve neg argv = .exc .systemExit) ∧
    (Reading neg gcUsage argv is → ¬ Usable is → gcParse resolve neg argv = .exc .systemExit) := by
  refine ⟨fun hw hn => ?_, fun hw hn => ?_, le_unusable, gc_unusable⟩
  · rcases le_else (resolve := resolve) (neg := neg) (argv := argv) with ⟨is, hr, hu⟩ | h | ⟨_, w, hm, ho⟩
    · exact absurd (le_parse hr hu) (hn _)
    · exact h
    · exact absurd ho (hw w hm)
  · rcases gc_else (resolve := resolve) (neg := neg) (argv := argv) with ⟨is, hr, hu⟩ | h | ⟨_, w, hm, ho⟩
    · exact absurd (gc_parse hr hu) (hn _)
    · exact h
    · exact absurd ho (hw w hm)

/-- C72: two parts of a command line that have no option in common, and not both a word, may change places. -/
theorem C72_order (hd : Apart is js) :
    (Reading neg leUsage a is → Reading neg leUsage b js → leParse resolve neg (a ++ b) = leParse resolve neg (b ++ a)) ∧
    (Reading neg gcUsage a is → Reading neg gcUsage b js → gcParse resolve neg (a ++ b) = gcParse resolve neg (b ++ a)) := by
  refine ⟨fun h h' => ?_, fun h h' => ?_⟩
  · by_cases hu : Usable (is ++ js)
    · rw [le_parse (h.append h') hu, le_parse (h'.append h) (usable_comm.1 hu), leMeaning_apart resolve hd]
    · rw [le_unusable (h.append h') hu, le_unusable (h'.append h) fun hu' => hu (usable_comm.1 hu')]
  · by_cases hu : Usable (is ++ js)
    · rw [gc_parse (h.append h') hu, gc_parse (h'.append h) (usable_comm.1 hu), gcMeaning_apart resolve hd]
    · rw [gc_unusable (h.append h') hu, gc_unusable (h'.append h) fun hu' => hu (usable_comm.1 hu')]

/-- C72: load-env itself takes no notice of `--ci-mode`. -/
theorem C72_ci_mode (h : Reading neg leUsage a is) (h' : Reading neg leUsage b js) :
    leParse resolve neg (a ++ py!"--ci-mode" :: b) = leParse resolve neg (a ++ b) := by
  let ci : Opt := ⟨[py!"--ci-mode"], py!"do_not_use_this_ci_mode_argument_in_load_env_python_code", .flag false⟩
  have hn : Named leUsage py!"--ci-mode" ci := ⟨by decide +kernel, by decide +kernel⟩
  have hc : Reading neg leUsage (py!"--ci-mode" :: b) (.act ci none :: js) := .flag (.inl hn) (by decide) h'
  have hw : wordsOf (is ++ .act ci none :: js) = wordsOf (is ++ js) := by
    rw [wordsOf_append, wordsOf_append]; rfl
  have hv : ∀ d, lastValue d (is ++ .act ci none :: js) = lastValue d (is ++ js) := by
    intro d
    rw [lastValue_append, lastValue_append]; rfl
  have hs : ∀ d, ci.dest ≠ d → switched d (is ++ .act ci none :: js) = switched d (is ++ js) := by
    intro d hd
    rw [switched_append, switched_append, switched, decide_eq_false hd]; rfl
  have hu : Usable (is ++ .act ci none :: js) ↔ Usable (is ++ js) := by
    unfold Usable
    rw [hw]
    refine and_congr Iff.rfl ⟨fun hh o v hm => hh o v ?_, fun hh o v hm => ?_⟩
    · rcases List.mem_append.1 hm with hm | hm
      · exact List.mem_append_left _ hm
      · exact List.mem_append_right _ (List.mem_cons_of_mem _ hm)
    · rcases List.mem_append.1 hm with hm | hm
      · exact hh o v (List.mem_append_left _ hm)
      · rcases List.mem_cons.1 hm with hm | hm
        · cases hm
          decide
        · exact hh o v (List.mem_append_right _ hm)
  by_cases hx : Usable (is ++ js)
  · rw [le_parse (h.append hc) (hu.2 hx), le_parse (h.append h') hx]
    unfold leMeaning
    rw [hw, hs _ (by decide +kernel), hs _ (by decide +kernel)]
    simp only [hv]
  · rw [le_unusable (h.append hc) fun hx' => hx (hu.1 hx'), le_unusable (h.append h') hx]

/-! ### The files -/

/-- The value of the last such option, as a path. -/
def fileOption (resolve : Str → Str) (is : List Item) : Str × Str → Option Str
  | (s, k) =>
    if s = py!"gen-config" ∧ k = py!"supported-config-flags" then (lastValue py!"supported_config_flags_file" is).map resolve
    else if s = py!"gen-config" ∧ k = py!"config-specs" then (lastValue py!"config_specs_file" is).map resolve
    else if s = py!"load-env" ∧ k = py!"supported-systems" then (lastValue py!"supported_systems_file" is).map resolve
    else if s = py!"load-env" ∧ k = py!"supported-envs" then (lastValue py!"supported_envs_file" is).map resolve
    else if s = py!"load-env" ∧ k = py!"environment-specs" then (lastValue py!"environment_specs_file" is).map resolve
    else none

theorem chosen_congr {δ ω : Type} {E : Env δ ω} {ini : Str} {g g' : Str × Str → Option Str} {s k x : Str}
    (h : Chosen E ini resolve g s k x) (e : g (s, k) = g' (s, k)) : Chosen E ini resolve g' s k x := by
  unfold Chosen at h ⊢
  rwa [e] at h

/-- C72: what gen-config works with, from the command line and gen-config.ini (C60). -/
theorem C72_genconfig_files {ini : Str} {c : Cfg} {n : Nat} {fs : FS} (ha : Anchored ini) (hist : List FS)
    (hc : ∀ fs0, (hist ++ [fs]).head? = some fs0 → ((newOn [ini]).configdata fs0).1 = .ok c)
    (hn : c.sectionNames.length + 3 ≤ n) (hd : DefaultApart c)
    (hs : ∀ s ∈ genConfigSections, s ∈ c.sectionNames ∧ Sound (baseEnv c 0) s)
    (hr : Reading neg gcUsage argv is) (hu : Usable is) :
    (NamesFiles (baseEnv c 0) fs ini true genConfigFiles →
      ∃ A, (genArgs n fs ini resolve neg argv (accessAll n ini hist GCTop.new)).1 = .ok A ∧
        A.build = (wordsOf is).headD [] ∧ A.force = switched py!"force" is ∧ A.ciMode = switched py!"ci_mode" is ∧
        A.listConfigs = switched py!"list_configs" is ∧ A.listFlags = switched py!"list_config_flags" is ∧
        A.yes = switched py!"yes" is ∧ A.fragment = (lastValue py!"cmake_fragment" is).map resolve ∧
        A.saveArgs = (lastValue py!"save_load_env_args" is).map resolve ∧
        Chosen (baseEnv c 0) ini resolve (fileOption resolve is) py!"gen-config" py!"supported-config-flags" A.flagsFile ∧
        Chosen (baseEnv c 0) ini resolve (fileOption resolve is) py!"gen-config" py!"config-specs" A.configsFile ∧
        Chosen (baseEnv c 0) ini resolve (fileOption resolve is) py!"load-env" py!"supported-systems" A.systemsFile ∧
        Chosen (baseEnv c 0) ini resolve (fileOption resolve is) py!"load-env" py!"supported-envs" A.envsFile ∧
        Chosen (baseEnv c 0) ini resolve (fileOption resolve is) py!"load-env" py!"environment-specs" A.specsFile) ∧
    (¬ NamesFiles (baseEnv c 0) fs ini true genConfigFiles →
      (genArgs n fs ini resolve neg argv (accessAll n ini hist GCTop.new)).1 = .exc .valueError) := by
  obtain ⟨h1, h2⟩ := C60_args (n := n) ha resolve (gcMeaning resolve is).given hist hc hn hd hs
  unfold genArgs
  rw [gc_parse hr hu]
  dsimp only
  refine ⟨fun hN => ?_, fun hN => ?_⟩
  · obtain ⟨a1, a2, a3, a4, a5, g, e, _, c1, c2, c3, c4, c5⟩ := h1 hN
    rw [M.bind_ok e]
    exact ⟨_, rfl, rfl, rfl, rfl, rfl, rfl, rfl, rfl, rfl, chosen_congr c1 rfl, chosen_congr c2 rfl, chosen_congr c3 rfl,
      chosen_congr c4 rfl, chosen_congr c5 rfl⟩
  · obtain ⟨e, _⟩ := h2 hN
    rw [M.bind_def]
    generalize GCTop.getArgs n fs ini resolve (gcMeaning resolve is).given (accessAll n ini hist GCTop.new) = y at e
    obtain ⟨y, g⟩ := y
    dsimp only at e
    subst e
    rfl

/-- C72: a command line that is refused ends gen-config before gen-config.ini is looked at. -/
theorem C72_genconfig_refused {ini : Str} {n : Nat} {fs : FS} (g : GCTop)
    (h : ((∀ w ∈ argv, ¬ Odd w) ∧ ¬ ∃ is, Reading neg gcUsage argv is ∧ Usable is) ∨ ∃ is, Reading neg gcUsage argv is ∧ ¬ Usable is) :
    genArgs n fs ini resolve neg argv g = (.exc .systemExit, g) := by
  have hp : gcParse resolve neg argv = .exc .systemExit := by
    rcases h with ⟨h1, h2⟩ | ⟨is, h1, h2⟩
    · exact (C72_refused (is := [])).2.1 h1 fun x hx => h2 (let ⟨is, a, b, _⟩ := (C72_genconfig x).1 hx; ⟨is, a, b⟩)
    · exact (C72_refused (argv := argv) (is := is)).2.2.2 h1 h2
  unfold genArgs
  rw [hp]
  rfl

/-- C72: what load-env works with, from the command line and load-env.ini (C60). -/
theorem C72_loadenv_files {ini : Str} {c : Cfg} {n : Nat} {fs : FS}
    (hc : ((newOn [ini]).configdata fs).1 = .ok c)
    (hn : c.sectionNames.length + 3 ≤ n) (hd : DefaultApart c)
    (hs : ∀ s ∈ loadEnvSections, s ∈ c.sectionNames ∧ Sound (baseEnv c 0) s)
    (hr : Reading neg leUsage argv is) (hu : Usable is) (hN : NamesFiles (baseEnv c 0) fs ini false loadEnvFiles) :
    ∃ a1 a2 a3, leArgs n fs ini resolve neg argv = .ok (leMeaning resolve is, [a1, a2, a3]) ∧
      Chosen (baseEnv c 0) ini resolve (fileOption resolve is) py!"load-env" py!"supported-systems" a1 ∧
      Chosen (baseEnv c 0) ini resolve (fileOption resolve is) py!"load-env" py!"supported-envs" a2 ∧
      Chosen (baseEnv c 0) ini resolve (fileOption resolve is) py!"load-env" py!"environment-specs" a3 := by
  obtain ⟨a1, a2, a3, e, c1, c2, c3⟩ := (C60_load_env (n := n) resolve (leMeaning resolve is).given hc hn hd hs).1 hN
  refine ⟨a1, a2, a3, ?_, chosen_congr c1 rfl, chosen_congr c2 rfl, chosen_congr c3 rfl⟩
  obtain ⟨f, e1, _⟩ := (access_once (n := n) (t := loadEnvTop) loadEnvTop_proper hc hn hd hs).1 hN
  unfold leArgs
  rw [e1, le_parse hr hu]
  dsimp only
  rw [e]

/-! ### From gen-config to load-env -/

theorem noHelp_nil : ∀ o v, Item.act o v ∈ ([] : List Item) → o.act ≠ .help := fun _ _ h => by cases h

theorem noHelp_cons {o : Opt} {v : Option Str} {is : List Item} (h : o.act ≠ .help)
    (hs : ∀ o v, Item.act o v ∈ is → o.act ≠ .help) : ∀ o' v', Item.act o' v' ∈ Item.act o v :: is → o'.act ≠ .help := by
  intro o' v' hm
  rcases List.mem_cons.1 hm with hm | hm
  · cases hm; exact h
  · exact hs _ _ hm

/-- The command line that gen-config makes up for load-env, without the build name. -/
theorem handover_reads (A : GenArgs) (h1 : Plain neg leUsage A.systemsFile) (h2 : Plain neg leUsage A.envsFile)
    (h3 : Plain neg leUsage A.specsFile) :
    ∃ pre is, loadEnvArgs A = pre ++ [A.build] ∧ Reading neg leUsage pre is ∧ wordsOf is = [] ∧
      (∀ o v, Item.act o v ∈ is → o.act ≠ .help) ∧
      leMeaning resolve is = { handed resolve A with build := [] } := by
  have n1 : Named leUsage py!"--supported-systems" ⟨[py!"--supported-systems"], py!"supported_systems_file", .store⟩ :=
    ⟨by decide +kernel, by decide +kernel⟩
  have n2 : Named leUsage py!"--supported-envs" ⟨[py!"--supported-envs"], py!"supported_envs_file", .store⟩ :=
    ⟨by decide +kernel, by decide +kernel⟩
  have n3 : Named leUsage py!"--environment-specs" ⟨[py!"--environment-specs"], py!"environment_specs_file", .store⟩ :=
    ⟨by decide +kernel, by decide +kernel⟩
  have n4 : Named leUsage py!"--force" ⟨[py!"-f", py!"--force"], py!"force", .flag true⟩ := ⟨by decide +kernel, by decide +kernel⟩
  have n5 : Named leUsage py!"--ci-mode"
      ⟨[py!"--ci-mode"], py!"do_not_use_this_ci_mode_argument_in_load_env_python_code", .flag false⟩ :=
    ⟨by decide +kernel, by decide +kernel⟩
  have base := fun {ws is} (r : Reading neg leUsage ws is) =>
    Reading.next (.inl n1) rfl h1 (.next (.inl n2) rfl h2 (.next (.inl n3) rfl h3 r))
  unfold loadEnvArgs handed
  cases A.force <;> cases A.ciMode
  · exact ⟨_, _, rfl, base .done, rfl, by repeat' first | exact noHelp_nil | refine noHelp_cons (by decide) ?_, rfl⟩
  · exact ⟨_, _, rfl, base (.flag (.inl n5) (by decide) .done), rfl, by repeat' first | exact noHelp_nil | refine noHelp_cons (by decide) ?_, rfl⟩
  · exact ⟨_, _, rfl, base (.flag (.inl n4) (by decide) .done), rfl, by repeat' first | exact noHelp_nil | refine noHelp_cons (by decide) ?_, rfl⟩
  · exact ⟨_, _, rfl, base (.flag (.inl n4) (by decide) (.flag (.inl n5) (by decide) .done)), rfl, by repeat' first | exact noHelp_nil | refine noHelp_cons (by decide) ?_, rfl⟩

/-- C72: load-env gets from gen-config the build name, `--force` and the three files, and nothing else, if and only if it
does not take the build name for an option. -/
theorem C72_handover (A : GenArgs) (h1 : Plain neg leUsage A.systemsFile) (h2 : Plain neg leUsage A.envsFile)
    (h3 : Plain neg leUsage A.specsFile) :
    leParse resolve neg (loadEnvArgs A) = .ok (handed resolve A) ↔ Plain neg leUsage A.build := by
  obtain ⟨pre, is, e, hr, hw, hh, hm⟩ := handover_reads (resolve := resolve) A h1 h2 h3
  rw [e]
  constructor
  · intro h
    rw [C72_loadenv] at h
    obtain ⟨js, hj, hu, hx⟩ := h
    obtain ⟨ks, rfl, hk⟩ := hr.rest le_wf hj
    have hb : A.build = (wordsOf ks).headD [] := by
      have := congrArg LeArgs.build hx
      dsimp only [leMeaning] at this
      rw [wordsOf_append, hw, List.nil_append] at this
      exact this
    by_cases hn : A.build = []
    · rw [hn]
      exact .inl (by decide)
    · generalize A.build = w at hb hn hk
      have short : ∀ {argv is}, Reading neg leUsage argv is → ∀ {x : Str}, argv = [x] → ¬ Plain neg leUsage x → wordsOf is = [] := by
        intro argv is h
        induction h with
        | done => intro x hx; cases hx
        | word hp _ _ => intro x hx hnp; cases hx; exact absurd hp hnp
        | flag _ _ h _ => intro x hx _; cases hx; cases h; rfl
        | next => intro x hx; cases hx
        | joined _ _ h _ => intro x hx _; cases hx; cases h; rfl
        | attached _ _ _ h _ => intro x hx _; cases hx; cases h; rfl
        | @cluster c d o o' r ws is _ _ hn' _ _ ih =>
          intro x hx _
          cases hx
          refine ih rfl ?_
          rintro (hp | hp | ⟨hp, _⟩)
          · exact hp rfl
          · cases hp
          · exact hp (.inr ⟨d, r, o', (short_name le_wf hn').1, hn', rfl⟩)
      apply Classical.byContradiction
      intro hp
      rw [short hk rfl hp] at hb
      exact hn hb
  · intro hp
    have hb : Reading neg leUsage [A.build] [.word A.build] := .word hp .done
    rw [le_parse (hr.append hb)]
    · have hs : ∀ d, switched d (is ++ [.word A.build]) = switched d is := by
        intro d
        rw [switched_append]
        simp [switched]
      have hv : ∀ d, lastValue d (is ++ [.word A.build]) = lastValue d is := by
        intro d
        rw [lastValue_append]
        rfl
      unfold leMeaning handed at hm ⊢
      simp only [hs, hv, wordsOf_append, hw] at hm ⊢
      simp only [LeArgs.mk.injEq] at hm
      obtain ⟨_, g2, g3, g4, g5, g6, g7, g8⟩ := hm
      rw [g2, g3, g4, g5, g6, g7, g8]
      rfl
    · refine ⟨?_, fun o v hmem => ?_⟩
      · rw [wordsOf_append, hw]
        exact Nat.le_refl _
      · rcases List.mem_append.1 hmem with hmem | hmem
        · exact hh o v hmem
        · rw [List.mem_singleton] at hmem
          cases hmem

/-- C72: so with absolute paths, which resolving leaves alone, and a build name without a dash in front, load-env works
with the same files, the same build name and the same `--force`. -/
theorem C72_handover_usual (A : GenArgs) (habs : ∀ f ∈ [A.systemsFile, A.envsFile, A.specsFile], f.head? = some '/' ∧ resolve f = f)
    (hb : A.build.head? ≠ some '-') :
    leParse resolve neg (loadEnvArgs A) = .ok (handed id A) := by
  have plain : ∀ f ∈ [A.systemsFile, A.envsFile, A.specsFile], Plain neg leUsage f :=
    fun f hf => .inl (by rw [(habs f hf).1]; decide)
  have := (C72_handover (resolve := resolve) A (plain _ (by simp)) (plain _ (by simp)) (plain _ (by simp))).2 (.inl hb)
  unfold handed at this ⊢
  rw [(habs A.systemsFile (by simp)).2, (habs A.envsFile (by simp)).2, (habs A.specsFile (by simp)).2] at this
  exact this

end

/-! ### examples -/

/-- Paths are taken as they are, and nothing is a negative number. -/
def noNeg : Str → Bool := fun _ => false

/-- Short names that share a dash, a name cut short, the last value counts, the build name anywhere. -/
example : leParse id noNeg [py!"-fl", py!"--out", py!"a", py!"my build", py!"-ob", py!"--supported-s=/s.ini", py!"--ci-mode"] =
    .ok {
      build := py!"my build", listEnvs := true, output := some py!"b", force := true, systems := some py!"/s.ini", envs := none,
      specs := none, location := none } := by decide +kernel

example : gcParse id noNeg [py!"--save", py!"f", py!"-yf", py!"b", py!"--list-config-"] =
    .ok {
      build := py!"b", listConfigs := false, listFlags := true, fragment := none, force := true, yes := true, ciMode := false,
      saveArgs := some py!"f", flagsFile := none, configsFile := none, systems := none, envs := none, specs := none } := by
  decide +kernel

/-- Refused: two words, an ambiguous name, no value, a value for a flag, no such option, help. -/
example : ∀ argv ∈ [[py!"a", py!"b"], [py!"--supported", py!"f"], [py!"--output"], [py!"-o", py!"-f"], [py!"--force=yes"], [py!"--nothing"],
    [py!"-fx"], [py!"a", py!"-h"], [py!"-fh"]], leParse id noNeg argv = .exc .systemExit := by decide +kernel

/-- The hypotheses of the theorems: a reading, and parts that may change places. -/
theorem example_reading : Reading noNeg leUsage [py!"-fo", py!"x", py!"b"]
    [.act ⟨[py!"-f", py!"--force"], py!"force", .flag true⟩ none, .act ⟨[py!"-o", py!"--output"], py!"output", .store⟩ (some py!"x"),
      .word py!"b"] :=
  .cluster (o' := ⟨[py!"-o", py!"--output"], py!"output", .store⟩) ⟨by decide +kernel, by decide +kernel⟩ (by decide)
    ⟨by decide +kernel, by decide +kernel⟩ (by decide)
    (.next (.inl ⟨by decide +kernel, by decide +kernel⟩) rfl (.inl (by decide)) (.word (.inl (by decide)) .done))

example : Usable [.act ⟨[py!"-f", py!"--force"], py!"force", .flag true⟩ none, .word py!"b"] :=
  ⟨by decide, fun o v h => by
    rcases List.mem_cons.1 h with h | h
    · cases h; decide
    · rw [List.mem_singleton] at h; cases h⟩

example : leParse id noNeg ([py!"-fo", py!"x", py!"b"] ++ [py!"--supported-envs", py!"e"]) =
    leParse id noNeg ([py!"--supported-envs", py!"e"] ++ [py!"-fo", py!"x", py!"b"]) :=
  (C72_order (js := [.act ⟨[py!"--supported-envs"], py!"supported_envs_file", .store⟩ (some py!"e")]) ⟨by
      intro o v o' v' h h'
      rw [List.mem_singleton] at h'
      cases h'
      simp only [List.mem_cons, List.not_mem_nil, or_false] at h
      rcases h with h | h | h <;> cases h <;> decide +kernel, .inr rfl⟩).1 example_reading
    (.next (.inl ⟨by decide +kernel, by decide +kernel⟩) rfl (.inl (by decide)) .done)

example := C72_ci_mode (resolve := id) example_reading (.done (neg := noNeg))

/-- What gen-config hands over. -/
def exampleHandover (build : Str) : GenArgs :=
  {
    build := build, force := true, ciMode := true, listConfigs := false, listFlags := false, fragment := none, yes := false,
    saveArgs := none, systemsFile := py!"/s", envsFile := py!"/e", specsFile := py!"/p", flagsFile := py!"/f", configsFile := py!"/c" }

example := C72_handover_usual (resolve := id) (neg := noNeg) (exampleHandover py!"ats1_intel opt") (by
  intro f hf
  simp only [exampleHandover, List.mem_cons, List.not_mem_nil, or_false] at hf
  rcases hf with rfl | rfl | rfl <;> exact ⟨rfl, rfl⟩) (by decide +kernel)

/-- A build name for gen-config that is an option for load-env: load-env writes a file and has no build name. -/
example : (gcParse id noNeg [py!"--output=a b"] = .ok {
      build := py!"--output=a b", listConfigs := false, listFlags := false,
      fragment := none, force := false, yes := false, ciMode := false, saveArgs := none, flagsFile := none, configsFile := none,
      systems := none, envs := none, specs := none }) ∧
    leParse id noNeg (loadEnvArgs (exampleHandover py!"--output=a b")) = .ok {
      build := [], listEnvs := false, output := some py!"a b", force := true, systems := some py!"/s", envs := some py!"/e", specs := some py!"/p",
      location := none } := by decide +kernel

section
open TopExample

example := (C72_genconfig_files (resolve := id) (n := 9) (c := cfg) (fs := disk true) (ini := py!"/t/gen-config.ini") (neg := noNeg)
  (.inl ⟨_, rfl⟩) [disk false] (fun _ h => by cases h; exact loads false) (by decide) apart sections
  (.flag (s := py!"-y") (.inl ⟨by decide +kernel, by decide +kernel⟩) (o := ⟨[py!"-y", py!"--yes"], py!"yes", .flag true⟩)
    (by decide) (.word (w := py!"b") (.inl (by decide)) .done))
  ⟨by decide, fun o v h => by
    rcases List.mem_cons.1 h with h | h
    · cases h; decide
    · rw [List.mem_singleton] at h; cases h⟩).1 fine

example := C72_genconfig_refused (resolve := id) (n := 9) (fs := disk true) (ini := py!"/t/gen-config.ini") (neg := noNeg) (argv := [py!"a", py!"b"]) GCTop.new
  (.inr ⟨_, .word (.inl (by decide)) (.word (.inl (by decide)) .done), fun h => absurd h.1 (by decide)⟩)

/-- The whole of it, computed. -/
example : (match (genArgs 9 (disk true) py!"/t/gen-config.ini" id noNeg [py!"--config-specs=/mine.ini", py!"b"] GCTop.new).1 with
    | .ok A => (A.build, A.flagsFile, A.configsFile, A.systemsFile)
    | _ => ([], [], [], [])) = (py!"b", py!"/t/flags.ini", py!"/mine.ini", py!"/t/systems.ini") := by decide +kernel

example : leArgs 9 (fun p => if p = py!"d/l.ini" then .file py!"[load-env]\nsupported-systems: s\nsupported-envs: e\nenvironment-specs: /x//y\n" else .absent)
    py!"d/l.ini" id noNeg [py!"--supported-envs", py!"/mine", py!"b"] =
    .ok ({
      build := py!"b", listEnvs := false, output := none, force := false, systems := none, envs := some py!"/mine", specs := none,
      location := none }, [py!"d/s", py!"/mine", py!"/x/y"]) := by decide +kernel

end

end CPE.Props
