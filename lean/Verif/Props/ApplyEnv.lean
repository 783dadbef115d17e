import Verif.Props.Messages
import Verif.Proofs.ApplyEnv
/-
C61: LoadEnv applies the environment that the build name asks for, and writes a script that does the same.
-/
namespace CPE.Props
open CPE CPE.Spec CPE.SetEnv CPE.SetEnv.Spec CPE.KW CPE.KW.Spec

section
variable {W : Site} {b : Str} {f : Bool} {environ : Environ} {files : Dict Str Str}

/-- A new object, after a history. -/
theorem reached (hn : NoHookOptions W.env) (ops : List AppOp) :
    Sound (W := W) (AppOp.buildAfter b ops) f (AppOp.run W ops (App.new b f environ files)) :=
  sound_run hn ops (sound_new b f environ files)

/-! ### Applying -/

/-- C61: after any history, `apply_env` performs the actions that environment-specs.ini gives the environment that the
present build name asks for, one after the other on the environment of the process; the first action that raises, or
that has a status other than 0 (RuntimeError), ends it. Or it fails before the first action, and then the environment is
what it was. It writes no files. Assumption: the texts in the actions can be read back by Python. -/
theorem C61_apply (hn : NoHookOptions W.env) (ops : List AppOp) :
    let a := AppOp.run W ops (App.new b f environ files)
    (App.applyEnv W a).2.files = a.files ∧
    ((∃ q l ms, EnvironmentIs W.tool (AppOp.buildAfter b ops) f q ∧ EnvActions W q l ∧ Program W.sys l ms ∧
        ((∀ x ∈ l, Clean x) → Goes ms a.environ (App.applyEnv W a).1 (App.applyEnv W a).2.environ)) ∨
      ((∀ u, (App.applyEnv W a).1 ≠ .ok u) ∧ (App.applyEnv W a).2.environ = a.environ)) := by
  intro a
  have ha : Sound (W := W) (AppOp.buildAfter b ops) f a := reached hn ops
  clear_value a
  obtain ⟨k1, k2, _, _⟩ := loadOnce_keeps (W := W) a
  cases hl : App.loadOnce W a with
  | mk o a1 =>
    rw [hl] at k1 k2
    dsimp only at k1 k2
    by_cases ho : o = .ok ()
    · subst ho
      have ha1 : Sound (W := W) (AppOp.buildAfter b ops) f a1 := by
        have := stays_loadOnce hn _ _ a ha
        rwa [hl] at this
      by_cases hq : ∃ q, parsedRes W.tool (AppOp.buildAfter b ops) f = .ok q
      · obtain ⟨q, hq⟩ := hq
        obtain ⟨e1, _, e3, e4⟩ := apply_named ha1 hl hq
        refine ⟨e4.trans k2, ?_⟩
        rw [e1, e3]
        rcases apply_cases hn (S := a1.state W) ha1.lists q with ⟨l, ms, h1, h2, _, h4⟩ | ⟨h1, h2⟩
        · refine .inl ⟨q, l, ms, (parsedRes_iff _ _ _).1 hq, h1, h2, fun hc => ?_⟩
          obtain ⟨h5, h6⟩ := h4 hc
          rw [h5, h6, ← k1]
          exact goes_of_runAll ms _
        · refine .inr ⟨fun u h => ?_, h2.trans k1⟩
          cases hx : (SetEnv.apply W.sys W.env W.tool.fuel q (a1.state W)).1 with
          | ok i => exact h1 i hx
          | exc e => rw [hx] at h; cases h
          | diverge => rw [hx] at h; cases h
      · obtain ⟨h1, _, h2, h3⟩ := apply_unnamed ha1 hl fun q h => hq ⟨q, h⟩
        exact ⟨h3.trans k2, .inr ⟨h1, h2.trans k1⟩⟩
    · rw [apply_none hl ho]
      exact ⟨k2, .inr ⟨fun u h => ho h, k1⟩⟩

/-- C61, the check of the whole file: `apply_env` of a new object looks at every section of environment-specs.ini before
it does anything. If a section cannot be read, or has an option (of its own, of a section it uses, or of DEFAULT) that
no handler takes, it raises, and the environment is what it was; ValueError in the second case. Otherwise every section
has its list of actions, and: an environment with a section is applied, one without a section is a KeyError, and without
an environment it fails. -/
theorem C61_new (hn : NoHookOptions W.env) :
    let a := App.new b f environ files
    ((((App.applyEnv W a).1 = .exc .valueError ∧ ∃ s ∈ W.specs.sectionNames, ∃ k, Unhandled W.env s k) ∨
        ∃ pre s post o, W.specs.sectionNames = pre ++ s :: post ∧
          (edGet W.env W.tool.fuel s (EdOp.run W.env W.tool.fuel (pre.map .get) (Obj.fresh W.env []))).1 = o ∧
          (∀ d, o ≠ .ok d) ∧ ∀ u, (App.applyEnv W a).1 ≠ .ok u) ∧
      (App.applyEnv W a).2.environ = environ) ∨
    ((∀ s ∈ W.specs.sectionNames, (∀ k, ¬ Unhandled W.env s k) ∧ ∃ l, EnvActions W s l) ∧
      (∀ q, EnvironmentIs W.tool b f q →
        (q ∈ W.specs.sectionNames → ∃ l ms, EnvActions W q l ∧ Program W.sys l ms ∧
          ((∀ x ∈ l, Clean x) → Goes ms environ (App.applyEnv W a).1 (App.applyEnv W a).2.environ)) ∧
        (W.specs.hasSection q = false → W.specs.optionNames q = none →
          (App.applyEnv W a).1 = .exc .keyError ∧ (App.applyEnv W a).2.environ = environ)) ∧
      ((∀ q, ¬ EnvironmentIs W.tool b f q) →
        (∀ u, (App.applyEnv W a).1 ≠ .ok u) ∧ (App.applyEnv W a).2.environ = environ)) := by
  intro a
  have ha : Sound (W := W) b f a := sound_new b f environ files
  have hs : a.setEnvironment = none := rfl
  have he : a.environ = environ := rfl
  clear_value a
  obtain ⟨k1, k2, _, _⟩ := loadOnce_keeps (W := W) a
  have hc := load_cases (W := W) a hs
  cases hl : App.loadOnce W a with
  | mk o a1 =>
    rw [hl] at k1 k2 hc
    dsimp only at k1 k2
    rw [he] at k1
    cases o with
    | exc e =>
      rw [apply_none hl (by simp)]
      refine .inl ⟨?_, k1⟩
      rcases hc with ⟨rfl, h⟩ | ⟨pre, s, post, h1, h2⟩
      · exact .inl ⟨rfl, h⟩
      · exact .inr ⟨pre, s, post, _, h1, h2, by simp, by simp⟩
    | diverge =>
      rw [apply_none hl (by simp)]
      refine .inl ⟨?_, k1⟩
      obtain ⟨pre, s, post, h1, h2⟩ := hc
      exact .inr ⟨pre, s, post, _, h1, h2, by simp, by simp⟩
    | ok u =>
      have ha1 : Sound (W := W) b f a1 := by
        have := stays_loadOnce hn _ _ a ha
        rwa [hl] at this
      have hst := load_stores hn hs hl
      refine .inr ⟨fun s hsn => ⟨hc s hsn, ?_⟩, fun q hq => ⟨fun hqs => ?_, fun hno hopt => ?_⟩, fun hno => ?_⟩
      · obtain ⟨_, l, hl⟩ := hst s hsn
        exact ⟨l, (ha1.lists s l hl).1⟩
      · obtain ⟨e1, _, e3, _⟩ := apply_named ha1 hl ((parsedRes_iff _ _ _).2 hq)
        obtain ⟨hck, l, hll⟩ := hst q hqs
        obtain ⟨ms, h1, h2, h3⟩ := apply_stored (S := a1.state W) ha1.lists hck hll
        refine ⟨l, ms, h1, h2, fun hcl => ?_⟩
        rw [e1, e3, ← k1]
        exact h3 hcl
      · obtain ⟨e1, _, e3, _⟩ := apply_named ha1 hl ((parsedRes_iff _ _ _).2 hq)
        rw [e1, e3, apply_missing (S := a1.state W) ha1.lists hno hopt]
        exact ⟨rfl, k1⟩
      · obtain ⟨h1, _, h2, _⟩ := apply_unnamed ha1 hl fun q h => hno q ((parsedRes_iff _ _ _).1 h)
        exact ⟨h1, h2.trans k1⟩

/-- C61: so an option that no handler takes, in any section of environment-specs.ini, keeps every environment from being
applied by a new object. -/
theorem C61_unhandled (hn : NoHookOptions W.env) {s k : Str} (hs : s ∈ W.specs.sectionNames) (hk : Unhandled W.env s k) :
    let a := App.new b f environ files
    (∀ u, (App.applyEnv W a).1 ≠ .ok u) ∧ (App.applyEnv W a).2.environ = environ := by
  intro a
  rcases C61_new (W := W) (b := b) (f := f) (environ := environ) (files := files) hn with ⟨h, he⟩ | ⟨h, _⟩
  · refine ⟨fun u hu => ?_, he⟩
    rcases h with ⟨h, _⟩ | ⟨_, _, _, _, _, _, _, h⟩
    · rw [h] at hu; cases hu
    · exact h u hu
  · exact absurd hk ((h s hs).1 k)

/-- C61, a second call after a failed check: the check is not repeated. If every section can be read and some section
has an option that no handler takes, the first `apply_env` of a new object raises ValueError, and the second one applies
the environment. -/
theorem C61_check_once (hn : NoHookOptions W.env)
    (hread : ∀ pre s post, W.specs.sectionNames = pre ++ s :: post →
      ∃ d, (edGet W.env W.tool.fuel s (EdOp.run W.env W.tool.fuel (pre.map .get) (Obj.fresh W.env []))).1 = .ok d)
    {s k : Str} (hs : s ∈ W.specs.sectionNames) (hk : Unhandled W.env s k) {q : Str}
    (hq : EnvironmentIs W.tool b f q) (hqs : q ∈ W.specs.sectionNames) :
    let a := App.new b f environ files
    let a1 := (App.applyEnv W a).2
    (App.applyEnv W a).1 = .exc .valueError ∧ a1.environ = environ ∧
    ∃ l ms, EnvActions W q l ∧ Program W.sys l ms ∧
      ((∀ x ∈ l, Clean x) → Goes ms environ (App.applyEnv W a1).1 (App.applyEnv W a1).2.environ) := by
  intro a a1
  have ha : Sound (W := W) b f a := sound_new b f environ files
  have hno : a.setEnvironment = none := rfl
  have he : a.environ = environ := rfl
  clear_value a
  obtain ⟨k1, _, _, k4⟩ := loadOnce_keeps (W := W) a
  have hc := load_cases (W := W) a hno
  have hst := load_stores_all hn hno hread
  have ha2 := stays_loadOnce hn _ _ a ha
  cases hl : App.loadOnce W a with
  | mk o a2 =>
    rw [hl] at k1 k4 hc hst ha2
    dsimp only at k1 k4 hst ha2
    cases o with
    | ok u => exact absurd hk (hc s hs k)
    | diverge =>
      obtain ⟨pre, t, post, h1, h2⟩ := hc
      obtain ⟨d, h3⟩ := hread pre t post h1
      rw [h2] at h3
      cases h3
    | exc e =>
      have hap := apply_none hl (by simp)
      have e1 : a1 = a2 := congrArg Prod.snd hap
      rw [e1, hap]
      have hv : e = .valueError := by
        rcases hc with ⟨h, _⟩ | ⟨pre, t, post, h1, h2⟩
        · exact h
        · obtain ⟨d, h3⟩ := hread pre t post h1
          rw [h2] at h3
          cases h3
      refine ⟨by rw [hv], k1.trans he, ?_⟩
      have hl2 := loadOnce_again (W := W) k4
      obtain ⟨e2, _, e3, _⟩ := apply_named ha2 hl2 ((parsedRes_iff _ _ _).2 hq)
      obtain ⟨hck, l, hll⟩ := hst q hqs
      obtain ⟨ms, h1, h2, h3⟩ := apply_stored (S := a2.state W) ha2.lists hck hll
      refine ⟨l, ms, h1, h2, fun hcl => ?_⟩
      rw [e2, e3, ← he, ← k1]
      exact h3 hcl

/-! ### Writing -/

/-- C61: after any history, `write_load_matching_env` does not change the environment. If it succeeds, it returns the
path asked for (or that of the temporary file), and both files hold the script for the environment that the present
build name asks for; no other file has changed. If it fails, only the temporary file can have changed, and then it is
gone. -/
theorem C61_write (hn : NoHookOptions W.env) (ops : List AppOp) (tmp : Str) (output : Option Str) :
    let a := AppOp.run W ops (App.new b f environ files)
    let r := App.write W tmp output a
    r.2.environ = a.environ ∧
    ((∃ q l ls, EnvironmentIs W.tool (AppOp.buildAfter b ops) f q ∧ EnvActions W q l ∧ CommandLines py!"bash" l ls ∧
        r.1 = .ok (output.getD tmp) ∧ Wrote a.files r.2.files tmp output (matchingScript W ls q)) ∨
      ((∀ p, r.1 ≠ .ok p) ∧ (r.2.files = a.files ∨ Dict.get? r.2.files tmp = none) ∧
        ∀ g, g ≠ tmp → Dict.get? r.2.files g = Dict.get? a.files g)) := by
  intro a r
  have ha : Sound (W := W) (AppOp.buildAfter b ops) f a := reached hn ops
  clear_value a
  obtain ⟨k1, k2, _, _⟩ := loadOnce_keeps (W := W) a
  have ha1 := stays_loadOnce hn _ _ a ha
  cases hl : App.loadOnce W a with
  | mk o a1 =>
    rw [hl] at k1 k2 ha1
    dsimp only at k1 k2 ha1
    by_cases ho : o = .ok ()
    · subst ho
      obtain ⟨h1, h2⟩ := write_cases hn ha1 hl tmp output
      rw [← k1, ← k2]
      refine ⟨h1, ?_⟩
      rcases h2 with ⟨q, l, ls, h2, h3, h4, h5, h6⟩ | ⟨h2, _, h3, h4⟩
      · exact .inl ⟨q, l, ls, (parsedRes_iff _ _ _).1 h2, h3, h4, h5, h6⟩
      · exact .inr ⟨h2, .inr h3, h4⟩
    · obtain ⟨h1, _, h2⟩ := write_fails_load (tmp := tmp) (output := output) hl ho
      have h2 : r.2 = a1 := h2
      rw [h2]
      refine ⟨k1, .inr ⟨h1, .inl k2, fun g _ => by rw [k2]⟩⟩

/-- C61: once `apply_env` has succeeded, the script can be written: its commands are those of the actions that have been
performed. -/
theorem C61_write_applied (hn : NoHookOptions W.env) (ops : List AppOp) {a a1 : App}
    (ha : a = AppOp.run W ops (App.new b f environ files)) (h : App.applyEnv W a = (.ok (), a1))
    (hclean : ∀ q l, EnvironmentIs W.tool (AppOp.buildAfter b ops) f q → EnvActions W q l → ∀ x ∈ l, Clean x) (tmp : Str) (output : Option Str) :
    ∃ q l ms ls, EnvironmentIs W.tool (AppOp.buildAfter b ops) f q ∧ EnvActions W q l ∧ Program W.sys l ms ∧
      Goes ms a.environ (.ok ()) a1.environ ∧ CommandLines py!"bash" l ls ∧
      (App.write W tmp output a1).1 = .ok (output.getD tmp) ∧ (App.write W tmp output a1).2.environ = a1.environ ∧
      Wrote a.files (App.write W tmp output a1).2.files tmp output (matchingScript W ls q) := by
  have hsa : Sound (W := W) (AppOp.buildAfter b ops) f a := ha ▸ reached hn ops
  clear ha
  have hsa1 := stays_apply hn _ _ a hsa
  rw [h] at hsa1
  obtain ⟨q, l, ms, ls, h1, h2, h3, h4, h5, h6, h7, h8⟩ := apply_ok hn hsa h hclean
  obtain ⟨ls', a2, w1, w2, w3, w4⟩ := write_stored hn hsa1 h1 h6 h7 h5 tmp output
  rw [w2]
  rw [h8] at w4
  exact ⟨q, l, ms, ls', (parsedRes_iff _ _ _).1 h1, h2, h3, h4, w1, rfl, w3, w4⟩

/-- C61: sourcing the script in a shell that has the environment which `apply_env` started from leaves the environment
that `apply_env` has left, and LOADED_ENV_NAME says which one it is. The actions are ones on which Bash and Python agree
(see C57), and the name is one that Bash takes as it is. -/
theorem C61_sourced (hn : NoHookOptions W.env) (ops : List AppOp) {a a1 : App} {tools : Bash.Tools}
    (ha : a = AppOp.run W ops (App.new b f environ files)) (h : App.applyEnv W a = (.ok (), a1))
    (hclean : ∀ q l, EnvironmentIs W.tool (AppOp.buildAfter b ops) f q → EnvActions W q l → ∀ x ∈ l, Clean x)
    (hport : ∀ q l, EnvironmentIs W.tool (AppOp.buildAfter b ops) f q → EnvActions W q l → PortableRun W.sys tools a.environ l)
    (hplain : ∀ q, EnvironmentIs W.tool (AppOp.buildAfter b ops) f q → PlainName q) (tmp : Str) (output : Option Str) :
    ∃ q text, EnvironmentIs W.tool (AppOp.buildAfter b ops) f q ∧
      Dict.get? (App.write W tmp output a1).2.files (output.getD tmp) = some text ∧
      source tools W.sys.bashHeader text a.environ = (.ok (), Dict.set a1.environ py!"LOADED_ENV_NAME" q) := by
  obtain ⟨q, l, ms, ls, h1, h2, h3, h4, h5, h6, h7, h8⟩ := C61_write_applied hn ops ha h hclean tmp output
  refine ⟨q, _, h1, (h8 _).1 ?_, source_matching h5 h3 (hport q l h1 h2) h4 (hplain q h1)⟩
  cases output with
  | none => exact .inl rfl
  | some o => exact .inr rfl

/-! ### The program -/

/-- C61, the program `load_env.py` with a build name: if the environment can be applied, the script is written to the
temporary file and to the one asked for, and the path of the temporary file to the one that load-env.sh asks for. -/
theorem C61_main (hn : NoHookOptions W.env)
    (hclean : ∀ q l, EnvironmentIs W.tool b f q → EnvActions W q l → ∀ x ∈ l, Clean x) (tmp : Str) (output location : Option Str) :
    let a := App.new b f environ files
    let r := App.main W false tmp output location a
    (∃ q l ms ls env', EnvironmentIs W.tool b f q ∧ EnvActions W q l ∧ Program W.sys l ms ∧ Goes ms environ (.ok ()) env' ∧
      CommandLines py!"bash" l ls ∧ r.1 = .ok () ∧ r.2.environ = env' ∧
      ∀ g, (location = some g → Dict.get? r.2.files g = some tmp) ∧
        (location ≠ some g → g = tmp ∨ output = some g → Dict.get? r.2.files g = some (matchingScript W ls q)) ∧
        (location ≠ some g → g ≠ tmp → output ≠ some g → Dict.get? r.2.files g = Dict.get? files g)) ∨
    ((∀ u, r.1 ≠ .ok u) ∧ r = App.applyEnv W a ∧ r.2.files = files) := by
  intro a r
  have hsa : Sound (W := W) b f a := sound_new b f environ files
  have hmain : r = (App.applyEnv W >>= fun _ => App.onNames (LE.getParsedEnvName W.tool) >>= fun _ =>
      App.write W tmp output >>= fun _ => App.tellWhere tmp location) a := by
    show App.main W false tmp output location a = _
    unfold App.main
    rw [if_neg (by simp)]
  clear_value r
  have hfiles := (C61_apply (W := W) (b := b) (f := f) (environ := environ) (files := files) hn []).1
  cases hx : App.applyEnv W a with
  | mk o a1 =>
    rw [M.bind_def, hx] at hmain
    have hfiles : a1.files = files := by
      have := hfiles
      rw [show App.applyEnv W (AppOp.run W [] (App.new b f environ files)) = _ from hx] at this
      exact this
    cases o with
    | exc e => subst hmain; exact .inr ⟨by simp, rfl, hfiles⟩
    | diverge => subst hmain; exact .inr ⟨by simp, rfl, hfiles⟩
    | ok u =>
      refine .inl ?_
      have hsa1 := stays_apply hn _ _ a hsa
      rw [hx] at hsa1
      obtain ⟨l', h1, h2⟩ := name_step hsa1
      obtain ⟨q, l, ms, ls, i1, i2, i3, i4, i5, i6, i7, i8⟩ := apply_ok hn hsa hx hclean
      obtain ⟨ls', a2, w1, w2, w3, w4⟩ := write_stored hn h2 i1 i6 i7 i5 tmp output
      dsimp only at hmain
      rw [M.bind_def, h1, i1] at hmain
      dsimp only at hmain
      rw [M.bind_def, w2] at hmain
      refine ⟨q, l, ms, ls', a1.environ, (parsedRes_iff _ _ _).1 i1, i2, i3, i4, w1, ?_⟩
      have w4 : Wrote files a2.files tmp output (matchingScript W ls' q) := by
        have : Wrote a1.files a2.files tmp output (matchingScript W ls' q) := w4
        rwa [hfiles] at this
      cases location with
      | none =>
        subst hmain
        exact ⟨rfl, w3, fun g => ⟨fun h => (by cases h), fun _ h => (w4 g).1 h, fun _ h h' => (w4 g).2 h h'⟩⟩
      | some loc =>
        subst hmain
        refine ⟨rfl, w3, fun g => ⟨fun h => ?_, fun h h' => ?_, fun h h' h'' => ?_⟩⟩
        · cases h
          exact Dict.get?_set_self _ _ _
        · have hg : g ≠ loc := fun e => h (by rw [e])
          exact (Dict.get?_set_ne _ _ hg).trans ((w4 g).1 h')
        · have hg : g ≠ loc := fun e => h (by rw [e])
          exact (Dict.get?_set_ne _ _ hg).trans ((w4 g).2 h' h'')

/-- What the list of environments is on a new object. -/
theorem envsText_new (build : Str) (force : Bool) (path : Str) :
    (∀ e, (DS.systemName (cls W.tool.systems) W.tool.fuel W.tool.host (DS.new (cls W.tool.systems) build force)).1 = .exc e →
      (LE.envsText W.tool path (LE.new build force)).1 = .exc e) ∧
    (∀ s, SystemIs W.tool build force s →
      (∀ e, EKP.new (cls W.tool.envs) W.tool.fuel build s = .exc e → (LE.envsText W.tool path (LE.new build force)).1 = .exc e) ∧
      (∀ k, EKP.new (cls W.tool.envs) W.tool.fuel build s = .ok k → (LE.envsText W.tool path (LE.new build force)).1 =
        (EKP.envsMsg (cls W.tool.envs) W.tool.fuel path py!"Please select one of the following." py!"INFO" k).1)) := by
  have hs : LE.getSystemName W.tool (LE.new build force) =
      match (DS.systemName (cls W.tool.systems) W.tool.fuel W.tool.host (DS.new (cls W.tool.systems) build force)).1 with
      | .ok r => (.ok r, { LE.new build force with systemName := some r })
      | .exc e => (.exc e, LE.new build force)
      | .diverge => (.diverge, LE.new build force) := rfl
  have hk : LE.getKeywordParser W.tool (LE.new build force) = LE.loadKeywordParser W.tool (LE.new build force) := rfl
  have hgen : ∀ r, (LE.getKeywordParser W.tool (LE.new build force)).1 = r → (LE.envsText W.tool path (LE.new build force)).1 =
      andThen r fun k => (EKP.envsMsg (cls W.tool.envs) W.tool.fuel path py!"Please select one of the following." py!"INFO" k).1 := by
    rintro r rfl
    unfold LE.envsText
    rw [M.bind_def]
    rcases LE.getKeywordParser W.tool (LE.new build force) with ⟨x | x | _, y⟩ <;> rfl
  refine ⟨fun e he => ?_, fun s h => ⟨fun e he => ?_, fun k he => ?_⟩⟩
  · rw [hgen (.exc e) (by rw [hk]; unfold LE.loadKeywordParser; rw [M.bind_def, hs, he])]; rfl
  · rw [hgen (.exc e) ?_]
    · rfl
    · unfold SystemIs at h
      rw [hk]; unfold LE.loadKeywordParser; rw [M.bind_def, hs, h]
      simp only [LE.new, he]
  · rw [hgen (.ok k) ?_]
    · rfl
    · unfold SystemIs at h
      rw [hk]; unfold LE.loadKeywordParser; rw [M.bind_def, hs, h]
      simp only [LE.new, he]

/-- C61, the program with `--list-envs`: it does nothing but end with SystemExit, or with the failure to find the system or to read
its environments. -/
theorem C61_list (tmp : Str) (output location : Option Str) :
    (∀ a, (App.main W true tmp output location a).2.environ = a.environ ∧
      (App.main W true tmp output location a).2.files = a.files ∧
      (App.main W true tmp output location a).2.setEnvironment = a.setEnvironment) ∧
    ∀ build force environ files,
      (∀ e, (DS.systemName (cls W.tool.systems) W.tool.fuel W.tool.host (DS.new (cls W.tool.systems) build force)).1 = .exc e →
        (App.main W true tmp output location (App.new build force environ files)).1 = .exc e) ∧
      (∀ s, SystemIs W.tool build force s →
        (∀ e, EKP.new (cls W.tool.envs) W.tool.fuel build s = .exc e →
          (App.main W true tmp output location (App.new build force environ files)).1 = .exc e) ∧
        (∀ k, EKP.new (cls W.tool.envs) W.tool.fuel build s = .ok k →
          (App.main W true tmp output location (App.new build force environ files)).1 = .exc .systemExit)) := by
  have hgen : ∀ (a : App) (r : Out Str), (LE.envsText W.tool W.envsFile a.le).1 = r →
      App.main W true tmp output location a = (andThen r fun _ => .exc .systemExit, { a with le := (LE.envsText W.tool W.envsFile a.le).2 }) := by
    rintro a r rfl
    unfold App.main
    rw [if_pos rfl]
    unfold App.listEnvs
    rw [M.bind_def]
    unfold App.onNames
    rcases LE.envsText W.tool W.envsFile a.le with ⟨x | x | _, y⟩ <;> rfl
  refine ⟨fun a => by rw [hgen a _ rfl]; exact ⟨rfl, rfl, rfl⟩, fun build force environ files => ?_⟩
  obtain ⟨h1, h2⟩ := envsText_new (W := W) build force W.envsFile
  refine ⟨fun e he => by rw [hgen (App.new build force environ files) _ (h1 e he)]; rfl, fun s hs => ⟨fun e he => ?_, fun k hk => ?_⟩⟩
  · rw [hgen (App.new build force environ files) _ ((h2 s hs).1 e he)]; rfl
  · have := (h2 s hs).2 k hk
    obtain ⟨d, o1, hr, _⟩ := ekpNew_ok hk
    obtain ⟨text, ht, _⟩ := C64_environments hk hr [] W.envsFile py!"Please select one of the following." py!"INFO"
    rw [show EKP.envsMsg (cls W.tool.envs) W.tool.fuel W.envsFile py!"Please select one of the following." py!"INFO" k = (.ok text, k) from ht] at this
    rw [hgen (App.new build force environ files) _ this]; rfl

/-- C64: what LoadEnv shows as the supported environments of the system: all of them in alphabetical order with their aliases. -/
theorem C64_list_envs (build : Str) (force : Bool) {s : Str} (hs : SystemIs W.tool build force s) {k : EKP}
    (hk : EKP.new (cls W.tool.envs) W.tool.fuel build s = .ok k) {d : Options} {o1 : CObj}
    (hr : edGetItem (cls W.tool.envs) W.tool.fuel s (Obj.fresh (cls W.tool.envs) ()) = (.ok d, o1)) (hp : OneLine W.envsFile)
    (h1 : OneLine s) (h2 : ∀ e ∈ Dict.keys d, OneLine e) (h3 : ∀ e ∈ Dict.keys d, ∀ v ∈ valuesIn d e, OneLine v) :
    ∃ text names es, (LE.envsText W.tool W.envsFile (LE.new build force)).1 = .ok text ∧
      InOrder (Dict.keys d) names ∧ EnvsShown d names es ∧
      Message [py!"Please select one of the following."] py!"INFO" ([[], py!"- Supported Environments for '" ++ s ++ py!"':"] ++ es ++
        [[], py!"See `" ++ W.envsFile ++ py!"` for details on the available environments.", [],
         py!"To force-load an environment see the guidance in the `--help` output.", []]) text := by
  obtain ⟨text, ht, hm⟩ := C64_environments hk hr [] W.envsFile py!"Please select one of the following." py!"INFO"
  obtain ⟨names, es, n1, n2, _, n3⟩ := hm [py!"Please select one of the following."] (.last (by decide) (oneLine_of_isBreak (by decide)))
    (by decide) hp h1 h2 h3
  refine ⟨text, names, es, ?_, n1, n2, n3⟩
  rw [((envsText_new (W := W) build force W.envsFile).2 s hs).2 k hk]
  exact congrArg Prod.fst ht

end

/-! ### A concrete case -/

/--
```
[COMMON]
envvar-set ROOT: ${HOME}/sw
[machine-1_gnu-9-openmpi]
use COMMON
envvar-append PATH: $ROOT/bin
module-load gcc: 4.8
[machine-1_intel-19]
module-swap gcc: intel
envvar-set ROOT: /opt
```
-/
def siteSpecs : Cfg where
  sections := [
    (py!"COMMON", [(py!"envvar-set ROOT", some py!"${HOME}/sw")]),
    (py!"machine-1_gnu-9-openmpi", [(py!"use COMMON", none), (py!"envvar-append PATH", some py!"$ROOT/bin"),
      (py!"module-load gcc", some py!"4.8")]),
    (py!"machine-1_intel-19", [(py!"module-swap gcc", some py!"intel"), (py!"envvar-set ROOT", some py!"/opt")])]

def site0 : Site := { tool := tool0, envsFile := py!"envs.ini", specs := siteSpecs, sys := exampleSys }

def siteActions : List Action :=
  [.envvar py!"envvar_set" py!"ROOT" (some py!"${HOME}/sw"), .envvar py!"envvar_append" py!"PATH" (some py!"$ROOT/bin"),
   .module py!"module_load" (some py!"gcc") (some py!"4.8")]

/-- The list of environments. -/
example : SystemIs site0.tool py!"gnu_teko" false py!"machine-1" ∧ ∃ k t, EKP.new (cls site0.tool.envs) site0.tool.fuel py!"gnu_teko" py!"machine-1" = .ok k ∧
    (LE.envsText site0.tool site0.envsFile (LE.new py!"gnu_teko" false)).1 = .ok t ∧
    (py!"\n" ++ frame ++ py!"\n|   INFO:  Please select one of the following.\n|\n|   - Supported Environments for 'machine-1':\n|     - gnu-9-openmpi\n").isPrefixOf t = true := by
  refine ⟨?_, _, _, rfl, rfl, ?_⟩
  · unfold SystemIs; decide +kernel
  · decide +kernel

theorem site_noHooks : NoHookOptions site0.env := noHookOptions_of _ (by decide +kernel)

theorem site_environment : EnvironmentIs site0.tool py!"gnu_teko" false py!"machine-1_gnu-9-openmpi" :=
  (parsedRes_iff _ _ _).1 (by decide +kernel)

theorem site_only {q : Str} (h : EnvironmentIs site0.tool py!"gnu_teko" false q) : q = py!"machine-1_gnu-9-openmpi" := by
  have h1 := (parsedRes_iff (W := site0) _ _ _).2 h
  rw [(parsedRes_iff (W := site0) _ _ _).2 site_environment] at h1
  exact (Out.ok.inj h1).symm

theorem site_actions : EnvActions site0 py!"machine-1_gnu-9-openmpi" siteActions := by
  have hp : (parseSection site0.env 10 py!"machine-1_gnu-9-openmpi" true true (Obj.fresh site0.env [])).1 =
      .ok (some siteActions) := by decide +kernel
  cases hx : parseSection site0.env 10 py!"machine-1_gnu-9-openmpi" true true (Obj.fresh site0.env []) with
  | mk x o =>
    rw [hx] at hp
    subst hp
    obtain ⟨cs, l, h1, h2, h3, _⟩ := C47_actions site_noHooks hx
    cases h3
    exact ⟨cs, h1, h2⟩

theorem site_clean {q : Str} {l : List Action} (hq : EnvironmentIs site0.tool py!"gnu_teko" false q)
    (hl : EnvActions site0 q l) : ∀ x ∈ l, Clean x := by
  cases site_only hq
  cases envActions_unique hl site_actions
  intro a ha
  simp only [siteActions, List.mem_cons, List.not_mem_nil, or_false] at ha
  rcases ha with rfl | rfl | rfl <;> simp [Clean, SetEnv.Spec.Readable] <;> decide

theorem site_portable : PortableRun exampleSys exampleTools exampleEnviron siteActions := by
  cases example_portable with
  | cons h1 h2 h3 =>
    refine .cons h1 h2 fun i e he => ?_
    cases h3 i e he with
    | cons h4 h5 h6 =>
      refine .cons h4 h5 fun i e he => ?_
      refine .cons (.module (.loadVersion (n := py!"gcc") (v := py!"4.8") (by decide)) ?_ rfl rfl)
        (.module (.loadVersion (n := py!"gcc") (v := py!"4.8") (by decide))) fun _ _ _ => .nil
      intro w hw
      simp only [List.mem_cons, List.not_mem_nil, or_false] at hw
      rcases hw with rfl | rfl
      · exact ⟨by decide, fun c hc => (Bash.bare_iff c).1 (by revert c; decide +kernel)⟩
      · exact ⟨by decide, fun c hc => (Bash.bare_iff c).1 (by revert c; decide +kernel)⟩

/-- The environment after `gnu_teko` has been applied. -/
def siteEnviron : Environ :=
  [(py!"HOME", py!"/home/u"), (py!"PATH", py!"/bin:/opt/x:/usr/bin:/opt/x:/home/u/sw/bin"), (py!"EMPTY", []),
   (py!"ROOT", py!"/home/u/sw"), (py!"LOADED", py!"load gcc/4.8")]

/-- The whole program on `gnu_teko`, with an old file in the way. -/
example :
    let r := App.main site0 false py!"t.sh" (some py!"out.sh") (some py!"where")
      (App.new py!"gnu_teko" false exampleEnviron [(py!"t.sh", py!"old"), (py!"other", py!"x")])
    r.1 = .ok () ∧ r.2.environ = siteEnviron ∧ Dict.get? r.2.files py!"where" = some py!"t.sh" ∧
    Dict.get? r.2.files py!"other" = some py!"x" ∧
    Dict.get? r.2.files py!"out.sh" = some (py!"#!/usr/bin/env bash\n# bash\n\n" ++ banner ++
      py!"envvar_op set \"ROOT\" \"${HOME}/sw\"\nenvvar_op append \"PATH\" \"$ROOT/bin\"\nmodule load gcc/4.8\n\n\n" ++
      py!"export LOADED_ENV_NAME=machine-1_gnu-9-openmpi") ∧
    Dict.get? r.2.files py!"t.sh" = Dict.get? r.2.files py!"out.sh" := by
  decide +kernel

/-- The hypotheses of C61_sourced are met. -/
example : ∃ a1 q text, App.applyEnv site0 (App.new py!"gnu_teko" false exampleEnviron []) = (.ok (), a1) ∧
    EnvironmentIs site0.tool py!"gnu_teko" false q ∧
    Dict.get? (App.write site0 py!"t.sh" none a1).2.files py!"t.sh" = some text ∧
    source exampleTools exampleSys.bashHeader text exampleEnviron =
      (.ok (), siteEnviron ++ [(py!"LOADED_ENV_NAME", py!"machine-1_gnu-9-openmpi")]) := by
  have hok : (App.applyEnv site0 (App.new py!"gnu_teko" false exampleEnviron [])).1 = .ok () := by decide +kernel
  have henv : (App.applyEnv site0 (App.new py!"gnu_teko" false exampleEnviron [])).2.environ = siteEnviron := by
    decide +kernel
  cases hx : App.applyEnv site0 (App.new py!"gnu_teko" false exampleEnviron []) with
  | mk o a1 =>
    rw [hx] at hok henv
    subst hok
    obtain ⟨q, text, h1, h2, h3⟩ := C61_sourced (W := site0) site_noHooks [] rfl hx (fun q l => site_clean)
      (fun q l hq hl => by
        cases site_only hq
        cases envActions_unique hl site_actions
        exact site_portable)
      (fun q hq => by
        cases site_only hq
        exact fun c hc => (Bash.bare_iff c).1 (by revert c; decide +kernel)) py!"t.sh" none
    refine ⟨a1, q, text, rfl, h1, h2, h3.trans ?_⟩
    rw [show a1.environ = siteEnviron from henv, site_only h1]
    decide +kernel

/-- A module command with a status other than 0 ends `apply_env` with RuntimeError: nothing is written, and what the
module command has done stays. -/
example :
    let r := App.main site0 false py!"t.sh" none (some py!"where") (App.new py!"intel" false exampleEnviron [])
    r.1 = .exc .runtimeError ∧ r.2.environ = Dict.set exampleEnviron py!"LOADED" py!"swap gcc intel" ∧ r.2.files = [] := by
  decide +kernel

/-- An environment without a section, and a history: the build name changes, and with it the script. -/
example :
    (App.applyEnv { site0 with specs := { sections := siteSpecs.sections.take 1 } }
      (App.new py!"gnu_teko" false exampleEnviron [])).1 = .exc .keyError ∧
    Dict.get? (AppOp.run site0 [.apply, .name (.setBuildName py!"intel"), .write py!"t.sh" none]
      (App.new py!"gnu_teko" false exampleEnviron [])).files py!"t.sh" = some (py!"#!/usr/bin/env bash\n# bash\n\n" ++ banner ++
      py!"module swap gcc intel\nenvvar_op set \"ROOT\" \"/opt\"\n\n\nexport LOADED_ENV_NAME=machine-1_intel-19") := by
  decide +kernel

/-- An option that no handler takes, in a section that has nothing to do with the environment. -/
def site1 : Site := { site0 with specs := { sections := siteSpecs.sections ++ [(py!"OTHER", [(py!"hello world", none)])] } }

/-- C61_check_once: the first call raises, the second one applies the environment. -/
example :
    let a := (App.applyEnv site1 (App.new py!"gnu_teko" false exampleEnviron [])).2
    (App.applyEnv site1 (App.new py!"gnu_teko" false exampleEnviron [])).1 = .exc .valueError ∧
    a.environ = exampleEnviron ∧ (App.applyEnv site1 a).1 = .ok () ∧ (App.applyEnv site1 a).2.environ = siteEnviron := by
  decide +kernel

/-- The hypotheses of C61_check_once are met. -/
example : (∀ pre s post, site1.specs.sectionNames = pre ++ s :: post →
      ∃ d, (edGet site1.env site1.tool.fuel s (EdOp.run site1.env site1.tool.fuel (pre.map .get) (Obj.fresh site1.env []))).1 =
        .ok d) ∧
    Unhandled site1.env py!"OTHER" py!"hello world" ∧ py!"OTHER" ∈ site1.specs.sectionNames := by
  refine ⟨?_, ?_, by decide +kernel⟩
  · intro pre s post h
    have hn : site1.specs.sectionNames =
      [py!"COMMON", py!"machine-1_gnu-9-openmpi", py!"machine-1_intel-19", py!"OTHER"] := rfl
    rw [hn] at h
    rcases pre with _ | ⟨p1, _ | ⟨p2, _ | ⟨p3, _ | ⟨p4, pre⟩⟩⟩⟩
    · cases h; exact ⟨[], by decide +kernel⟩
    · cases h; exact ⟨[], by decide +kernel⟩
    · cases h; exact ⟨[], by decide +kernel⟩
    · cases h; exact ⟨[(py!"hello world", none)], by decide +kernel⟩
    · have := congrArg List.length h
      simp at this
  · exact ⟨py!"OTHER", .inl (.refl _), _, py!"hello world", none, rfl, .head _, rfl⟩

end CPE.Props
