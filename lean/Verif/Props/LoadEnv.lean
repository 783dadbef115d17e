import Verif.Proofs.LoadEnv
import Verif.Props.DetermineSystem
import Verif.Props.ConfigKeywords
/-
C55: LoadEnv.
-/
namespace CPE.Props
open CPE CPE.Spec CPE.SetEnv CPE.KW CPE.KW.Spec

section
variable {T : Tool}

/-- C55: what any operation gets after any history, whatever the outcomes so far, is what it gets on a new object with
the current build name. -/
theorem C55_history (b : Str) (f : Bool) (ops : List LeOp) (op : LeOp) :
    (LeOp.exec T op (LeOp.run T ops (LE.new b f))).1 = (LeOp.exec T op (LE.new (LeOp.buildAfter b ops) f)).1 := by
  obtain ⟨h1, h2, h3⟩ := le_run ops (leInv_new (T := T) b f)
  obtain ⟨_, e1, _⟩ := le_exec h1 op
  obtain ⟨_, e2, _⟩ := le_exec (leInv_new (T := T) (LeOp.buildAfter b ops) f) op
  rw [e1, e2, h2, h3]
  rfl

/-- C55: `system_name` is what DetermineSystem says. -/
theorem C55_system (b : Str) (f : Bool) :
    (LE.getSystemName T (LE.new b f)).1 = (DS.systemName (cls T.systems) T.fuel T.host (DS.new (cls T.systems) b f)).1 := by
  obtain ⟨_, h, _⟩ := system_step (leInv_new (T := T) b f)
  rw [h]; rfl

/-- C55: `parsed_env_name` is the environment that EnvKeywordParser finds on the system that DetermineSystem finds. -/
theorem C55_environment (b : Str) (f : Bool) (q : Str) :
    (LE.getParsedEnvName T (LE.new b f)).1 = .ok q ↔ EnvironmentIs T b f q := by
  obtain ⟨_, h, _⟩ := parsed_step (leInv_new (T := T) b f)
  rw [h]
  show parsedRes T b f = .ok q ↔ _
  rw [parsedRes]
  constructor
  · intro h
    cases hk : ekpRes T b f with
    | exc e => rw [hk] at h; cases h
    | diverge => rw [hk] at h; cases h
    | ok k =>
      rw [hk] at h
      obtain ⟨s, hs, hn⟩ := ekpRes_new hk
      exact ⟨s, k, hs, hn, h⟩
  · rintro ⟨s, k, hs, hn, hq⟩
    have : ekpRes T b f = .ok k := by
      rw [ekpRes, show sysRes T b f = .ok (some s) from hs]; exact hn
    rw [this]; exact hq

/-- C55: it raises what the first of the tools that fails raises. -/
theorem C55_failures (b : Str) (f : Bool) (e : PyExc) :
    ((DS.systemName (cls T.systems) T.fuel T.host (DS.new (cls T.systems) b f)).1 = .exc e →
      (LE.getParsedEnvName T (LE.new b f)).1 = .exc e ∧ (LE.getStripped T (LE.new b f)).1 = .exc e) ∧
    (∀ s, SystemIs T b f s → EKP.new (cls T.envs) T.fuel b s = .exc e →
      (LE.getParsedEnvName T (LE.new b f)).1 = .exc e ∧ (LE.getStripped T (LE.new b f)).1 = .exc e) ∧
    (∀ s k, SystemIs T b f s → EKP.new (cls T.envs) T.fuel b s = .ok k →
      (EKP.qualifiedEnvName (cls T.envs) T.fuel T.host k).1 = .exc e → (LE.getParsedEnvName T (LE.new b f)).1 = .exc e) := by
  obtain ⟨_, h1, _⟩ := parsed_step (leInv_new (T := T) b f)
  obtain ⟨_, h2, _⟩ := stripped_step (leInv_new (T := T) b f)
  have g1 : (LE.getParsedEnvName T (LE.new b f)).1 = parsedRes T b f := by rw [h1]; rfl
  have g2 : (LE.getStripped T (LE.new b f)).1 = strippedRes T b f := by rw [h2]; rfl
  rw [g1, g2]
  refine ⟨fun h => ?_, fun s h h' => ?_, fun s k h h' h'' => ?_⟩
  · have : ekpRes T b f = .exc e := by rw [ekpRes, show sysRes T b f = .exc e from h]; rfl
    rw [parsedRes, strippedRes, this]; exact ⟨rfl, rfl⟩
  · have : ekpRes T b f = .exc e := by rw [ekpRes, show sysRes T b f = .ok (some s) from h]; exact h'
    rw [parsedRes, strippedRes, this]; exact ⟨rfl, rfl⟩
  · have : ekpRes T b f = .ok k := by rw [ekpRes, show sysRes T b f = .ok (some s) from h]; exact h'
    rw [parsedRes, this]; exact h''

theorem joinStr_joined (ws : List Str) : joinStr ['_'] ws = joined ws := by
  induction ws with
  | nil => rfl
  | cons w ws ih =>
    cases ws with
    | nil => rfl
    | cons v ws =>
      show w ++ ['_'] ++ joinStr ['_'] (v :: ws) = w ++ '_' :: joined (v :: ws)
      rw [ih]; simp

/-- C55: `env_stripped_build_name` is the build name without the words that are environment names or aliases of the
system, or systems. -/
theorem C55_stripped {b s : Str} {f : Bool} (hs : SystemIs T b f s) (hf : T.envs.hasSection s = true) {k : EKP}
    (hk : EKP.new (cls T.envs) T.fuel b s = .ok k) :
    ∃ d kept, Resolved (cls T.envs) s d ∧ (LE.getStripped T (LE.new b f)).1 = .ok (joined kept) ∧
      kept.Sublist (splitChar '_' b) ∧
      (∀ p : Str → Bool, (∀ w ∈ splitChar '_' b, p w = true ↔ w ∉ Dict.keys d ∧ w ∉ allValues d ∧ ¬ Systems (cls T.systems) w) →
        kept = (splitChar '_' b).filter p) := by
  obtain ⟨d, o1, hr, ha, hn, e⟩ := ekpNew_ok hk
  obtain ⟨_, h2, _⟩ := stripped_step (leInv_new (T := T) b f)
  have he : ekpRes T b f = .ok k := by rw [ekpRes, show sysRes T b f = .ok (some s) from hs]; exact hk
  refine ⟨d, keptWords T k b, read_resolved hf hr, ?_, ?_, fun p hp => ?_⟩
  · rw [h2]
    show strippedRes T b f = _
    rw [strippedRes, he]
    show Out.ok (joinStr ['_'] (keptWords T k b)) = _
    rw [joinStr_joined]
  · exact (List.filter_sublist.trans List.filter_sublist).trans List.filter_sublist
  · rw [keptWords, List.filter_filter, List.filter_filter]
    refine List.filter_congr fun w hw => ?_
    have h1 : w ∈ k.envNames ↔ w ∈ Dict.keys d := by rw [e]; exact mem_sortByLen
    have h2 : w ∈ k.aliases ↔ w ∈ allValues d := by rw [e]; exact mem_sortByLen
    have h3 : w ∈ sysNames (cls T.systems) ↔ Systems (cls T.systems) w := by
      rw [sysNames, List.mem_filter]; simp [Systems, edKeys]
    rw [Bool.eq_iff_iff, hp w hw, ← h1, ← h2, ← h3]
    simp only [Bool.and_eq_true, Bool.not_eq_true', List.contains_eq_mem, decide_eq_false_iff_not]
    exact ⟨fun ⟨⟨a, b⟩, c⟩ => ⟨c, b, a⟩, fun ⟨a, b, c⟩ => ⟨⟨c, b⟩, a⟩⟩

end

/-! ### A concrete case -/

/-- The environments of two systems. -/
def toolEnvs : Cfg where
  sections := [
    (py!"machine-1", [(py!"gnu-9-openmpi", some py!"gnu\ndefault-env"), (py!"intel-19", some py!"intel")]),
    (py!"machine-2", [(py!"arm-20", some py!"arm\ndefault-env")])]

/-- The tools on a node of machine-1. -/
def tool0 : Tool where
  systems := systemsCfg
  envs := toolEnvs
  flags := flagsCfg
  specs := { sections := [] }
  host := host1
  fuel := 10

example : (LE.getParsedEnvName tool0 (LE.new py!"gnu_teko" false)).1 = .ok py!"machine-1_gnu-9-openmpi" ∧
    (LE.getParsedEnvName tool0 (LE.new py!"machine-2_arm_teko" true)).1 = .ok py!"machine-2_arm-20" ∧
    (LE.getParsedEnvName tool0 (LE.new py!"machine-2_arm_teko" false)).1 = .exc .systemExit ∧
    (LE.getStripped tool0 (LE.new py!"machine-1_gnu_teko_mpi" false)).1 = .ok py!"teko_mpi" := by decide +kernel

/-- A history: the answers follow the build name. -/
example : (LeOp.exec tool0 .parsedEnvName (LeOp.run tool0 [.parsedEnvName, .strippedBuildName, .setBuildName py!"intel"]
    (LE.new py!"gnu_teko" false))).1 = .ok (.str py!"machine-1_intel-19") := by decide +kernel

/-- The hypotheses of C55_stripped hold. -/
example : SystemIs tool0 py!"machine-1_gnu_teko_mpi" false py!"machine-1" ∧ tool0.envs.hasSection py!"machine-1" = true ∧
    ∃ k, EKP.new (cls tool0.envs) tool0.fuel py!"machine-1_gnu_teko_mpi" py!"machine-1" = .ok k :=
  ⟨by unfold SystemIs; decide +kernel, rfl, _, rfl⟩

/-- The hypotheses of C55_failures hold. -/
example : (DS.systemName (cls tool0.systems) 10 tool0.host (DS.new (cls tool0.systems) py!"machine-2_arm" false)).1 = .exc .systemExit := by
  decide +kernel

end CPE.Props
