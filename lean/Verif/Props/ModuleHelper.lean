import Verif.Proofs.ModuleHelper
import Verif.Props.Apply
import Verif.Spec.LoadEnv
/-
C62: what `ModuleHelper.module` does.
-/
namespace CPE.Props
open CPE CPE.SetEnv CPE.SetEnv.Spec CPE.KW.Spec CPE.MH CPE.MH.Spec

section
variable (H : Host)

/-- C62: `module(command, *arguments)` does what `ModOutcome` says, for every environment, whatever the processes do. -/
theorem C62_module (words args : List Str) (env env' : Environ) (out : Out Int) :
    MH.module H words args env = (out, env') ↔ ModOutcome H env words args out env' := by
  rcases locate_cases H env with ⟨p, hp, hl⟩ | ⟨hno, hl⟩
  · have huniq : ∀ {q}, Located H env q → q = p := fun hq => by
      have := (locate_iff H env _).2 hq
      rw [hl] at this
      injection this with this
      exact this.symm
    have hline : ∀ {q cmd}, Located H env q → Line q words args cmd →
        cmd = p :: py!"python" :: words ++ argWords args := fun hq hc => by
      rw [(line_iff _ _ _ _).1 hc, huniq hq]
    have hcmd := (line_iff p words args _).2 rfl
    unfold MH.module
    rw [hl]
    dsimp only
    cases hr : H.popen (p :: py!"python" :: words ++ argWords args) env with
    | exc e =>
      dsimp only
      constructor
      · rintro ⟨⟩; exact .notRun hp hcmd hr
      · intro h
        cases h with
        | notFound hn => exact absurd hp (hn p)
        | notRun h1 h2 h3 => rw [hline h1 h2, hr] at h3; cases h3; rfl
        | hangs h1 h2 h3 => rw [hline h1 h2, hr] at h3; cases h3
        | reported h1 h2 h3 => rw [hline h1 h2, hr] at h3; cases h3
        | failed h1 h2 h3 => rw [hline h1 h2, hr] at h3; cases h3
        | raised h1 h2 h3 => rw [hline h1 h2, hr] at h3; cases h3
        | spins h1 h2 h3 => rw [hline h1 h2, hr] at h3; cases h3
        | refused h1 h2 h3 => rw [hline h1 h2, hr] at h3; cases h3
        | done h1 h2 h3 => rw [hline h1 h2, hr] at h3; cases h3
    | diverge =>
      dsimp only
      constructor
      · rintro ⟨⟩; exact .hangs hp hcmd hr
      · intro h
        cases h with
        | notFound hn => exact absurd hp (hn p)
        | notRun h1 h2 h3 => rw [hline h1 h2, hr] at h3; cases h3
        | hangs h1 h2 h3 => rfl
        | reported h1 h2 h3 => rw [hline h1 h2, hr] at h3; cases h3
        | failed h1 h2 h3 => rw [hline h1 h2, hr] at h3; cases h3
        | raised h1 h2 h3 => rw [hline h1 h2, hr] at h3; cases h3
        | spins h1 h2 h3 => rw [hline h1 h2, hr] at h3; cases h3
        | refused h1 h2 h3 => rw [hline h1 h2, hr] at h3; cases h3
        | done h1 h2 h3 => rw [hline h1 h2, hr] at h3; cases h3
    | ok r =>
      dsimp only
      have hpr : ∀ {q cmd r'}, Located H env q → Line q words args cmd → H.popen cmd env = .ok r' → r' = r :=
        fun h1 h2 h3 => by rw [hline h1 h2, hr] at h3; cases h3; rfl
      have hne : ∀ {q cmd e}, Located H env q → Line q words args cmd → H.popen cmd env ≠ .exc e :=
        fun h1 h2 h3 => by rw [hline h1 h2, hr] at h3; cases h3
      have hnd : ∀ {q cmd}, Located H env q → Line q words args cmd → H.popen cmd env ≠ .diverge :=
        fun h1 h2 h3 => by rw [hline h1 h2, hr] at h3; cases h3
      unfold finish
      by_cases hrep : isSubstr py!"ERROR:" r.err = true
      · rw [if_pos hrep]
        have hrep := (reported_iff r).1 hrep
        constructor
        · rintro ⟨⟩; exact .reported hp hcmd hr hrep
        · intro h
          cases h with
          | notFound hn => exact absurd hp (hn p)
          | notRun h1 h2 h3 => exact absurd h3 (hne h1 h2)
          | hangs h1 h2 h3 => exact absurd h3 (hnd h1 h2)
          | reported h1 h2 h3 => rfl
          | failed h1 h2 h3 h4 => exact absurd (hpr h1 h2 h3 ▸ hrep) h4
          | raised h1 h2 h3 h4 => exact absurd (hpr h1 h2 h3 ▸ hrep) h4
          | spins h1 h2 h3 h4 => exact absurd (hpr h1 h2 h3 ▸ hrep) h4
          | refused h1 h2 h3 h4 => exact absurd (hpr h1 h2 h3 ▸ hrep) h4
          | done h1 h2 h3 h4 => exact absurd (hpr h1 h2 h3 ▸ hrep) h4
      · rw [if_neg hrep]
        have hrep : ¬ Reported r := fun h => hrep ((reported_iff r).2 h)
        by_cases hcode : r.code ≠ 0
        · rw [if_pos hcode]
          constructor
          · rintro ⟨⟩; exact .failed hp hcmd hr hrep hcode
          · intro h
            cases h with
            | notFound hn => exact absurd hp (hn p)
            | notRun h1 h2 h3 => exact absurd h3 (hne h1 h2)
            | hangs h1 h2 h3 => exact absurd h3 (hnd h1 h2)
            | reported h1 h2 h3 h4 => exact absurd (hpr h1 h2 h3 ▸ h4) hrep
            | failed h1 h2 h3 => rw [hpr h1 h2 h3]; rfl
            | raised h1 h2 h3 h4 h5 => exact absurd (hpr h1 h2 h3 ▸ h5) hcode
            | spins h1 h2 h3 h4 h5 => exact absurd (hpr h1 h2 h3 ▸ h5) hcode
            | refused h1 h2 h3 h4 h5 => exact absurd (hpr h1 h2 h3 ▸ h5) hcode
            | done h1 h2 h3 h4 h5 => exact absurd (hpr h1 h2 h3 ▸ h5) hcode
        · rw [if_neg hcode]
          have hcode : r.code = 0 := Decidable.not_not.1 hcode
          unfold runOutput
          rw [M.bind_def]
          have hgone : ∀ {x}, H.exec r.out env = x → ModOutcome H env words args out env' →
              (∃ e, x = (.exc e, env') ∧ out = .exc e) ∨ (x = (.diverge, env') ∧ out = .diverge) ∨
              (x = (.ok (some false), env') ∧ out = .ok 1) ∨
              ∃ st, x = (.ok st, env') ∧ st ≠ some false ∧ out = .ok 0 := by
            intro x hx h
            cases h with
            | notFound hn => exact absurd hp (hn p)
            | notRun h1 h2 h3 => exact absurd h3 (hne h1 h2)
            | hangs h1 h2 h3 => exact absurd h3 (hnd h1 h2)
            | reported h1 h2 h3 h4 => exact absurd (hpr h1 h2 h3 ▸ h4) hrep
            | failed h1 h2 h3 h4 h5 => exact absurd hcode (hpr h1 h2 h3 ▸ h5)
            | raised h1 h2 h3 h4 h5 h6 => rw [hpr h1 h2 h3, hx] at h6; exact .inl ⟨_, h6, rfl⟩
            | spins h1 h2 h3 h4 h5 h6 => rw [hpr h1 h2 h3, hx] at h6; exact .inr (.inl ⟨h6, rfl⟩)
            | refused h1 h2 h3 h4 h5 h6 => rw [hpr h1 h2 h3, hx] at h6; exact .inr (.inr (.inl ⟨h6, rfl⟩))
            | done h1 h2 h3 h4 h5 h6 h7 => rw [hpr h1 h2 h3, hx] at h6; exact .inr (.inr (.inr ⟨_, h6, h7, rfl⟩))
          cases hx : H.exec r.out env with
          | mk o e1 =>
            cases o with
            | exc e =>
              constructor
              · rintro ⟨⟩; exact .raised hp hcmd hr hrep hcode hx
              · intro h
                have k := hgone hx h
                clear h
                rcases k with ⟨e, k, rfl⟩ | ⟨k, _⟩ | ⟨k, _⟩ | ⟨st, k, _⟩ <;> cases k <;> rfl
            | diverge =>
              constructor
              · rintro ⟨⟩; exact .spins hp hcmd hr hrep hcode hx
              · intro h
                have k := hgone hx h
                clear h
                rcases k with ⟨e, k, rfl⟩ | ⟨k, rfl⟩ | ⟨k, _⟩ | ⟨st, k, _⟩ <;> cases k <;> rfl
            | ok st =>
              dsimp only
              by_cases hst : st = some false
              · subst hst
                rw [if_pos rfl]
                constructor
                · rintro ⟨⟩; exact .refused hp hcmd hr hrep hcode hx
                · intro h
                  have k := hgone hx h
                  clear h
                  rcases k with ⟨e, h, rfl⟩ | ⟨h, rfl⟩ | ⟨h, rfl⟩ | ⟨st, h, h', _⟩
                  · cases h
                  · cases h
                  · cases h; rfl
                  · cases h; exact absurd rfl h'
              · rw [if_neg hst]
                constructor
                · rintro ⟨⟩; exact .done hp hcmd hr hrep hcode hx hst
                · intro h
                  have k := hgone hx h
                  clear h
                  rcases k with ⟨e, h, rfl⟩ | ⟨h, rfl⟩ | ⟨h, rfl⟩ | ⟨st, h, h', rfl⟩
                  · cases h
                  · cases h
                  · cases h; exact absurd rfl hst
                  · cases h; rfl
  · unfold MH.module
    rw [hl]
    dsimp only
    constructor
    · rintro ⟨⟩; exact .notFound hno
    · intro h
      cases h with
      | notFound => rfl
      | notRun h1 => exact absurd h1 (hno _)
      | hangs h1 => exact absurd h1 (hno _)
      | reported h1 => exact absurd h1 (hno _)
      | failed h1 => exact absurd h1 (hno _)
      | raised h1 => exact absurd h1 (hno _)
      | spins h1 => exact absurd h1 (hno _)
      | refused h1 => exact absurd h1 (hno _)
      | done h1 => exact absurd h1 (hno _)

/-- C62: every text has words, and only one list of them. -/
theorem C62_words (a : Str) : ∃ ws, SpaceWords a ws ∧ ∀ ws', SpaceWords a ws' → ws' = ws :=
  ⟨splitSpace a, (splitSpace_iff a _).1 rfl, fun _ h => (splitSpace_of_words h).symm⟩

/-- C62: the environment changes only by the commands that a modulecmd has printed that has ended with status 0 and has
not reported an error. -/
theorem C62_changes (words args : List Str) (env : Environ) (h : (MH.module H words args env).2 ≠ env) :
    ∃ p cmd r, Located H env p ∧ Line p words args cmd ∧ H.popen cmd env = .ok r ∧ ¬ Reported r ∧ r.code = 0 ∧
      (MH.module H words args env).2 = (H.exec r.out env).2 := by
  cases hm : MH.module H words args env with
  | mk out env' =>
  rw [hm] at h
  have ho := (C62_module H words args env _ _).1 hm
  clear hm
  dsimp only at h ⊢
  cases ho with
  | notFound => exact absurd rfl h
  | notRun => exact absurd rfl h
  | hangs => exact absurd rfl h
  | reported => exact absurd rfl h
  | failed => exact absurd rfl h
  | raised h1 h2 h3 h4 h5 h6 => exact ⟨_, _, _, h1, h2, h3, h4, h5, by rw [h6]⟩
  | spins h1 h2 h3 h4 h5 h6 => exact ⟨_, _, _, h1, h2, h3, h4, h5, by rw [h6]⟩
  | refused h1 h2 h3 h4 h5 h6 => exact ⟨_, _, _, h1, h2, h3, h4, h5, by rw [h6]⟩
  | done h1 h2 h3 h4 h5 h6 => exact ⟨_, _, _, h1, h2, h3, h4, h5, by rw [h6]⟩

/-- C62 for LMOD. -/
theorem C62_lmod {words : List Str} (hw : words ≠ []) (args : List Str) (env env' : Environ) (out : Out Int) :
    moduleLmod H words args env = (out, env') ↔ LmodOutcome H env (words ++ args) out env' := by
  unfold moduleLmod
  have hget : ∀ {v : Option Str}, Dict.get? env py!"LMOD_CMD" = v → ∀ {w}, Dict.get? env py!"LMOD_CMD" = some w → v = some w :=
    fun h1 _ h2 => by rw [← h1, h2]
  cases hv : Dict.get? env py!"LMOD_CMD" with
  | none =>
    dsimp only
    constructor
    · rintro ⟨⟩; exact .unset hv
    · intro h
      cases h with
      | unset => rfl
      | empty h1 => cases hget hv h1
      | noName h1 => cases hget hv h1
      | raised h1 => cases hget hv h1
      | spins h1 => cases hget hv h1
      | unchecked h1 => cases hget hv h1
      | reported h1 => cases hget hv h1
      | failed h1 => cases hget hv h1
      | done h1 => cases hget hv h1
  | some v =>
    by_cases hve : v = []
    · subst hve
      dsimp only
      constructor
      · rintro ⟨⟩; exact .empty hv
      · intro h
        cases h with
        | unset h1 => rw [hv] at h1; cases h1
        | empty => rfl
        | noName h1 h2 => cases hget hv h1; exact absurd rfl h2
        | raised h1 h2 => cases hget hv h1; exact absurd rfl h2
        | spins h1 h2 => cases hget hv h1; exact absurd rfl h2
        | unchecked h1 h2 => cases hget hv h1; exact absurd rfl h2
        | reported h1 h2 => cases hget hv h1; exact absurd rfl h2
        | failed h1 h2 => cases hget hv h1; exact absurd rfl h2
        | done h1 h2 => cases hget hv h1; exact absurd rfl h2
    · obtain ⟨vc, vs, rfl⟩ := List.exists_cons_of_ne_nil hve
      dsimp only
      rw [M.bind_def]
      unfold lmodRun
      cases hx : H.lmod (words ++ args) env with
      | mk o e1 =>
        cases o with
        | diverge =>
          dsimp only
          constructor
          · rintro ⟨⟩; exact .spins hv hve hx
          · intro h
            cases h with
            | unset h1 => rw [hv] at h1; cases h1
            | empty h1 => cases hget hv h1
            | noName h1 h2 h3 => rw [hx] at h3; cases h3
            | raised h1 h2 h3 => rw [hx] at h3; cases h3
            | spins h1 h2 h3 => rw [hx] at h3; cases h3; rfl
            | unchecked h1 h2 h3 => rw [hx] at h3; cases h3
            | reported h1 h2 h3 => rw [hx] at h3; cases h3
            | failed h1 h2 h3 => rw [hx] at h3; cases h3
            | done h1 h2 h3 => rw [hx] at h3; cases h3
        | exc e =>
          dsimp only
          constructor
          · rintro ⟨⟩
            by_cases he : e = nameError
            · subst he
              rw [if_pos rfl]
              exact .noName hv hve hx
            · rw [if_neg he]
              exact .raised hv hve hx he
          · intro h
            cases h with
            | unset h1 => rw [hv] at h1; cases h1
            | empty h1 => cases hget hv h1
            | noName h1 h2 h3 => rw [hx] at h3; cases h3; rfl
            | raised h1 h2 h3 h4 => rw [hx] at h3; cases h3; rw [if_neg (show e ≠ nameError from h4)]
            | spins h1 h2 h3 => rw [hx] at h3; cases h3
            | unchecked h1 h2 h3 => rw [hx] at h3; cases h3
            | reported h1 h2 h3 => rw [hx] at h3; cases h3
            | failed h1 h2 h3 => rw [hx] at h3; cases h3
            | done h1 h2 h3 => rw [hx] at h3; cases h3
        | ok r =>
          obtain ⟨o, err⟩ := r
          dsimp only
          unfold lmodStatus
          cases hc : checks words args with
          | error e =>
            obtain ⟨rfl, hno⟩ := checks_error hw hc
            dsimp only
            constructor
            · rintro ⟨⟩; exact .unchecked hv hve hx hno
            · intro h
              cases h with
              | unset h1 => rw [hv] at h1; cases h1
              | empty h1 => cases hget hv h1
              | noName h1 h2 h3 => rw [hx] at h3; cases h3
              | raised h1 h2 h3 => rw [hx] at h3; cases h3
              | spins h1 h2 h3 => rw [hx] at h3; cases h3
              | unchecked h1 h2 h3 => rw [hx] at h3; cases h3; rfl
              | reported h1 h2 h3 h4 => exact absurd h4 (hno _)
              | failed h1 h2 h3 h4 h5 => exact absurd h5 (hno _)
              | done h1 h2 h3 h4 h5 => exact absurd h5 (hno _)
          | ok cs =>
            have hcs := (checks_iff hw args cs).1 hc
            have huniq : ∀ {cs'}, Checks (words ++ args) cs' → cs' = cs := fun h => by
              have := (checks_iff hw args _).2 h
              rw [hc] at this
              injection this with this
              exact this.symm
            dsimp only
            by_cases hrep : isSubstr py!"error:" (asciiLower err) = true
            · rw [if_pos hrep]
              have hrep := (lmodReported_iff err).1 hrep
              constructor
              · rintro ⟨⟩; exact .reported hv hve hx hcs hrep
              · intro h
                cases h with
                | unset h1 => rw [hv] at h1; cases h1
                | empty h1 => cases hget hv h1
                | noName h1 h2 h3 => rw [hx] at h3; cases h3
                | raised h1 h2 h3 => rw [hx] at h3; cases h3
                | spins h1 h2 h3 => rw [hx] at h3; cases h3
                | unchecked h1 h2 h3 h4 => exact absurd hcs (h4 cs)
                | reported h1 h2 h3 => rw [hx] at h3; cases h3; rfl
                | failed h1 h2 h3 h4 => rw [hx] at h3; cases h3; exact absurd hrep h4
                | done h1 h2 h3 h4 => rw [hx] at h3; cases h3; exact absurd hrep h4
            · rw [if_neg hrep]
              have hrep : ¬ LmodReported err := fun h => hrep ((lmodReported_iff err).2 h)
              constructor
              · rintro ⟨⟩
                rcases runChecks_cases H env' cs with ⟨h1, h2⟩ | ⟨good, c, rest, rfl, h1, h2, h3⟩
                · rw [h1]; exact .done hv hve hx hrep hcs h2
                · rw [h3]; exact .failed hv hve hx hrep hcs h1 h2
              · intro h
                cases h with
                | unset h1 => rw [hv] at h1; cases h1
                | empty h1 => cases hget hv h1
                | noName h1 h2 h3 => rw [hx] at h3; cases h3
                | raised h1 h2 h3 => rw [hx] at h3; cases h3
                | spins h1 h2 h3 => rw [hx] at h3; cases h3
                | unchecked h1 h2 h3 h4 => exact absurd hcs (h4 cs)
                | reported h1 h2 h3 h4 h5 => rw [hx] at h3; cases h3; exact absurd h5 hrep
                | failed h1 h2 h3 h4 h5 h6 h7 =>
                  rw [hx] at h3; cases h3; rw [← huniq h5, runChecks_bad H _ _ h7 h6]
                | done h1 h2 h3 h4 h5 h6 =>
                  rw [hx] at h3; cases h3; rw [huniq h5] at h6; rw [runChecks_good H _ h6]

/-! ### In SetEnvironment -/

theorem runAll_upto (E : Env Shared Actions) {ms : List (M Environ Int)} {env env₁ env₂ : Environ} {i : Int}
    {m : M Environ Int} (hg : Goes ms env (.ok ()) env₁) (hm : m env₁ = (.ok i, env₂)) (hi : i ≠ 0) (hl : 2 ≤ E.level)
    (rest : List (M Environ Int)) (acc : Int) :
    runAll E (ms ++ m :: rest) acc env = (.exc .runtimeError, env₂, []) := by
  induction ms generalizing env acc with
  | nil =>
    cases hg
    rw [List.nil_append, runAll, hm]
    dsimp only
    rw [if_neg hi, if_pos hl]
  | cons m' ms ih =>
    cases hg with
    | step h1 h2 =>
      rw [List.cons_append, runAll, h1]
      dsimp only
      rw [if_pos rfl]
      exact ih h2 _

/-- C62 in SetEnvironment, from exception_control_level 2 on: if modulecmd reports an error for a module action, or ends
with a status other than 0, `apply` raises a RuntimeError at this action, and the environment of the process is the one
that the actions before it have made. -/
theorem C62_apply (sys : Sys) (hsys : sys.module = MH.call H) (E : Env Shared Actions) (hlev : 2 ≤ E.level) {n : Nat}
    {s : Str} (S : State) {x : Out (Dict Str (Option Str))} {o₁ : Obj Shared Actions}
    (hg : edGetItem E n s S.obj = (x, o₁)) (hx : (∃ v, x = .ok v) ∨ x = .exc .keyError)
    {l l' : List Action} {a : Action} (hl : Dict.get? o₁.self s = some (l ++ a :: l'))
    {ms : List (M Environ Int)} (hms : Program sys (l ++ a :: l') ms) (hc : ∀ y ∈ l ++ a :: l', Clean y)
    {env₁ : Environ} (hgo : Goes (ms.take l.length) S.environ (.ok ()) env₁)
    {c : Str} {args cmd : List Str} {p : Str} {r : Proc} (hw : ModuleWords a (c :: args)) (hp : Located H env₁ p)
    (hcmd : Line p [c] args cmd) (hr : H.popen cmd env₁ = .ok r) (hbad : Reported r ∨ r.code ≠ 0) :
    (SetEnv.apply sys E n s S).1 = .exc .runtimeError ∧ (SetEnv.apply sys E n s S).2.environ = env₁ := by
  have key : ∃ m rest, ms = ms.take l.length ++ m :: rest ∧ Does sys a m := by
    clear hl hc hgo hg
    induction l generalizing ms with
    | nil =>
      cases hms with
      | cons h1 h2 => exact ⟨_, _, rfl, h1⟩
    | cons y l ih =>
      cases hms with
      | cons h1 h2 =>
        obtain ⟨m, rest, he, hd⟩ := ih h2
        exact ⟨m, rest, by rw [List.length_cons, List.take_succ_cons, List.cons_append, ← he], hd⟩
  obtain ⟨m, rest, he, hd⟩ := key
  have hm : m = MH.module H [c] args := by
    have : Does sys a (sys.module (c :: args)) := .module hw
    have := does_det hd this
    rw [this, hsys]
    rfl
  have hrun : ∃ i, i ≠ 0 ∧ m env₁ = (.ok i, env₁) := by
    rw [hm]
    by_cases hrep : Reported r
    · exact ⟨1, by decide, (C62_module H _ _ _ _ _).2 (.reported hp hcmd hr hrep)⟩
    · exact ⟨r.code, hbad.resolve_left hrep, (C62_module H _ _ _ _ _).2 (.failed hp hcmd hr hrep (hbad.resolve_left hrep))⟩
  obtain ⟨i, hi, hrun⟩ := hrun
  rw [C48_apply sys E S hg hx hl hms hc]
  have := runAll_upto E hgo hrun hi hlev rest 0
  rw [← he] at this
  rw [this]
  exact ⟨rfl, rfl⟩

end

/-! ### Examples -/

/-- A host without modulecmd on the search path; the shell function `module` says where it is. `load` prints a command
that sets LOADED, `unload` fails with status 3, `swap` reports an error, `purge` prints a command that ends with
`_mlstatus = False`, `use` prints code that raises. -/
def exampleHost : Host where
  finder _ := none
  which _ p := if p = py!"/opt/mod/modulecmd" then some p else none
  typeModule _ := some py!"module is a function\nmodule () \n{ \n    eval `/opt/mod/modulecmd bash $*`\n}\n"
  popen cmd _ :=
    match cmd with
    | p :: l :: c :: args =>
      if p ≠ py!"/opt/mod/modulecmd" ∨ l ≠ py!"python" then .exc .runtimeError
      else if c = py!"load" then .ok ⟨joinStr py!"+" args, py!"loading", 0⟩
      else if c = py!"unload" then .ok ⟨py!"x", py!"error", 3⟩
      else if c = py!"swap" then .ok ⟨py!"x", py!"init.c(1):ERROR:50: no module", 0⟩
      else if c = py!"purge" then .ok ⟨py!"purge", [], 0⟩
      else .ok ⟨py!"bad", [], 0⟩
    | _ => .exc .runtimeError
  exec out env :=
    if out = py!"purge" then (.ok (some false), Dict.set env py!"LOADED" [])
    else if out = py!"bad" then (.exc .runtimeError, Dict.set env py!"HALF" [])
    else (.ok none, Dict.set env py!"LOADED" out)
  lmod ws env :=
    if ws = [py!"oops"] then (.exc nameError, env)
    else (.ok ([], if ws = [py!"load", py!"bad"] then py!"Lmod ERROR: unknown" else []), Dict.set env py!"LOADED" (joinStr py!"+" ws))
  system c _ := if c = py!"module is-loaded gcc && true  || false" then 0 else 256

/-- C62_module and C62_changes: all results; a single argument is split, two are not. -/
example :
    let env : Environ := [(py!"HOME", py!"/home/u")]
    let m (c a : List Str) (e : Environ) : Out Int × Environ := MH.module exampleHost c a e
    m [py!"load"] [py!" gcc/4.8  cmake "] env = (.ok 0, env ++ [(py!"LOADED", py!"gcc/4.8+cmake")]) ∧
    m [py!"load", py!"a"] [py!"b c", py!"d"] env = (.ok 0, env ++ [(py!"LOADED", py!"a+b c+d")]) ∧
    m [py!"unload"] [py!"gcc"] env = (.ok 3, env) ∧
    m [py!"swap"] [py!"a", py!"b"] env = (.ok 1, env) ∧
    m [py!"purge"] [] env = (.ok 1, env ++ [(py!"LOADED", [])]) ∧
    m [py!"use"] [py!"d"] env = (.exc .runtimeError, env ++ [(py!"HALF", [])]) ∧
    MH.module { exampleHost with typeModule := fun _ => some py!"module not found" } [py!"load"] [] env =
      (.exc (.user py!"FileNotFoundError"), env) ∧
    MH.module { exampleHost with finder := fun _ => some py!"/bin/modulecmd" } [py!"load"] [] env =
      (.exc .runtimeError, env) := by
  refine ⟨?_, ?_, ?_, ?_, ?_, ?_, ?_, ?_⟩ <;> rfl

/-- What the shell function says. -/
example : Located exampleHost [] py!"/opt/mod/modulecmd" := (locate_iff _ _ _).1 (by decide +kernel)

/-- Two lines that name a program: none is taken. -/
example : ∀ p, ¬ Defines py!"eval `a bash`\neval `b bash`" p := by
  intro p h
  have := (evalAll_iff _ _).2 h
  have h2 : evalAll py!"eval `a bash`\neval `b bash`" = [py!"a", py!"b"] := by decide +kernel
  rw [h2] at this
  cases this

/-- C62_lmod: all results. -/
example :
    let env : Environ := [(py!"LMOD_CMD", py!"/opt/lmod")]
    let m (c a : List Str) (e : Environ) : Out Int × Environ := moduleLmod exampleHost c a e
    m [py!"load"] [py!"gcc"] env = (.ok 0, env ++ [(py!"LOADED", py!"load+gcc")]) ∧
    m [py!"load"] [py!"bad"] env = (.ok 1, env ++ [(py!"LOADED", py!"load+bad")]) ∧
    m [py!"unload", py!"gcc"] [] env = (.ok 256, env ++ [(py!"LOADED", py!"unload+gcc")]) ∧
    m [py!"swap"] [py!"a"] env = (.exc .indexError, env ++ [(py!"LOADED", py!"swap+a")]) ∧
    m [py!"purge"] [] env = (.ok 0, env ++ [(py!"LOADED", py!"purge")]) ∧
    m [py!"oops"] [] env = (.exc .runtimeError, env) ∧
    m [py!"load"] [py!"gcc"] [] = (.exc .typeError, []) ∧
    m [py!"load"] [py!"gcc"] [(py!"LMOD_CMD", [])] = (.exc (.user py!"FileNotFoundError"), [(py!"LMOD_CMD", [])]) := by
  refine ⟨?_, ?_, ?_, ?_, ?_, ?_, ?_, ?_⟩ <;> rfl

/-- C62_apply: the actions of MAIN, with modulecmd and level 2: `swap` reports an error. What `load` has done stays. -/
example :
    let E : Env Shared Actions := { env exampleCfg exampleSettings with level := 2 }
    let sys : Sys := { exampleSys with module := MH.call exampleHost }
    let S := State.fresh E exampleEnviron []
    (SetEnv.apply sys E 9 py!"MAIN" S).1 = .exc .runtimeError ∧
    (SetEnv.apply sys E 9 py!"MAIN" S).2.environ =
      [(py!"HOME", py!"/home/u"), (py!"PATH", py!"/bin:/opt/x:/usr/bin:/opt/x:${WHO}/bin"), (py!"EMPTY", []),
       (py!"LOADED", py!"gcc/4.8")] ∧
    Dict.get? (edGetItem E 9 py!"MAIN" S.obj).2.self py!"MAIN" = some exampleActions := by
  decide +kernel

/-- The surroundings of that run. -/
def exampleModSys : Sys := { exampleSys with module := MH.call exampleHost }

/-- The environment before the swap. -/
def exampleBefore : Environ :=
  [(py!"HOME", py!"/home/u"), (py!"PATH", py!"/bin:/opt/x:/usr/bin:/opt/x:${WHO}/bin"), (py!"EMPTY", []),
   (py!"LOADED", py!"gcc/4.8")]

/-- All hypotheses of C62_apply are met. -/
example :
    let E : Env Shared Actions := { env exampleCfg exampleSettings with level := 2 }
    let S := State.fresh E exampleEnviron []
    (SetEnv.apply exampleModSys E 9 py!"MAIN" S).1 = .exc .runtimeError ∧
    (SetEnv.apply exampleModSys E 9 py!"MAIN" S).2.environ = exampleBefore := by
  intro E S
  have hg : (edGetItem E 9 py!"MAIN" S.obj).1 = .ok [] := by decide +kernel
  have hg' : edGetItem E 9 py!"MAIN" S.obj = (.ok [], (edGetItem E 9 py!"MAIN" S.obj).2) := by rw [← hg]
  refine C62_apply exampleHost exampleModSys rfl E (by decide) S (x := .ok []) (o₁ := (edGetItem E 9 py!"MAIN" S.obj).2)
    hg' (.inl ⟨_, rfl⟩) (l := exampleActions.take 4) (a := .module py!"module_swap" (some py!"intel") (some py!"intel/19"))
    (l' := []) (by decide +kernel)
    (ms := [envvarOp exampleModSys py!"set" py!"WHO" py!"me" true, exampleModSys.module [py!"load", py!"gcc/4.8"],
       envvarOp exampleModSys py!"unset" py!"WHO" [] true, envvarOp exampleModSys py!"append" py!"PATH" py!"${WHO}/bin" true,
       exampleModSys.module [py!"swap", py!"intel", py!"intel/19"]])
    (.cons (.envvar (.two (op := py!"set") (by decide) (by decide)))
      (.cons (.module (.loadVersion (n := py!"gcc") (v := py!"4.8") (by decide))) (.cons (.unset .unset)
        (.cons (.envvar (.two (op := py!"append") (by decide) (by decide))) (.cons (.module .swap) .nil)))))
    example_clean (env₁ := exampleBefore) ?_ (c := py!"swap") (args := [py!"intel", py!"intel/19"]) (p := py!"/opt/mod/modulecmd") .swap
    ((locate_iff _ _ _).1 (by decide +kernel)) (.other (by decide))
    (r := ⟨py!"x", py!"init.c(1):ERROR:50: no module", 0⟩) (by decide +kernel) (.inl ⟨py!"init.c(1):", py!"50: no module", rfl⟩)
  show Goes _ exampleEnviron _ _
  refine .step (env' := exampleEnviron ++ [(py!"WHO", py!"me")]) (by decide +kernel) (.step
    (env' := exampleEnviron ++ [(py!"WHO", py!"me"), (py!"LOADED", py!"gcc/4.8")]) (by decide +kernel) (.step
    (env' := exampleEnviron ++ [(py!"LOADED", py!"gcc/4.8")]) (by decide +kernel) (.step
    (env' := exampleBefore) (by decide +kernel) .done)))

end CPE.Props
