import Verif.Spec.LoadEnv
import Verif.Proofs.LoadEnv
import Verif.Props.BashScript
import Verif.Props.LoadEnv
/-
Proofs for the part of LoadEnv that applies an environment and writes a script for it.
-/
namespace CPE.KW
open CPE CPE.Spec CPE.SetEnv CPE.SetEnv.Spec CPE.KW.Spec CPE.Props

section
variable (W : Site)

/-! ### The stored lists -/

/-- Every stored list is the one the file gives its section. -/
def Lists (self : Actions) : Prop :=
  ∀ t l, Dict.get? self t = some l → EnvActions W t l ∧ (W.specs.optionNames t).isSome = true

variable {W}

theorem lists_inv (hn : NoHookOptions W.env) :
    ObjInv W.env W.tool.fuel (fun _ i f => i = true ∨ f = false) (fun o : Obj Shared Actions => Lists W o.self) :=
  { full := fun _ => .inl rfl
    parse := by
      intro s i f o hA ho
      cases hx : parseSection W.env W.tool.fuel s i f o with
      | mk x o' =>
        have hfail : (f = false ∨ ∀ r, x ≠ .ok r) → o'.self = o.self := by
          intro h
          have := parseSection_self hn W.tool.fuel s i f o (by rw [show parseSection (SetEnv.env W.specs { level := 5 }) W.tool.fuel s i f o = _ from hx]; exact h)
          rwa [show parseSection (SetEnv.env W.specs { level := 5 }) W.tool.fuel s i f o = _ from hx] at this
        cases f with
        | false => intro t l hl; rw [hfail (.inl rfl)] at hl; exact ho t l hl
        | true =>
          have hi : i = true := by
            rcases hA with h | h
            · exact h
            · cases h
          subst hi
          cases x with
          | ok r =>
            obtain ⟨cs, L, h1, h2, _, h4, h5⟩ := C47_actions hn hx
            intro t l hl
            by_cases ht : t = s
            · subst ht
              rw [h4] at hl
              cases hl
              refine ⟨⟨cs, h1, h2⟩, ?_⟩
              obtain ⟨evs, htr⟩ := parseTrace_total W.env t true true
              exact (parseTrace_visits_root htr ((parseSection_ok hx).2.2.2 evs htr)).2
            · rw [h5 t ht] at hl
              exact ho t l hl
          | exc e => intro t l hl; rw [hfail (.inr fun r h => by cases h)] at hl; exact ho t l hl
          | diverge => intro t l hl; rw [hfail (.inr fun r h => by cases h)] at hl; exact ho t l hl
    mark := fun _ _ h => h
    event := fun _ _ _ h => h
    write := fun _ _ _ h _ => h
    put := fun _ _ _ _ h => h }

theorem envActions_unique {q : Str} {l l' : List Action} (h : EnvActions W q l) (h' : EnvActions W q l') : l = l' := by
  obtain ⟨cs, h1, h2⟩ := h
  obtain ⟨cs', h1', h2'⟩ := h'
  exact (C47_list_unique h1 h2 h1' h2').2

/-! ### The state of the tool -/

/-- What every history keeps. -/
structure Sound (b : Str) (f : Bool) (a : App) : Prop where
  names : LEInv W.tool a.le
  build : a.le.buildName = b
  force : a.le.force = f
  lists : Lists W (a.setEnvironment.getD (Obj.fresh W.env [])).self

/-- `m` keeps it. -/
def Stays {α : Type} (m : M App α) : Prop := ∀ b f a, Sound (W := W) b f a → Sound (W := W) b f (m a).2

theorem Stays.bind {α β : Type} {m : M App α} {g : α → M App β} (h : Stays (W := W) m) (hg : ∀ x, Stays (W := W) (g x)) :
    Stays (W := W) (m >>= g) := by
  intro b f a ha
  have h1 := h b f a ha
  rw [M.bind_def]
  cases hm : m a with
  | mk o a' =>
    rw [hm] at h1
    cases o with
    | ok x => exact hg x b f a' h1
    | exc e => exact h1
    | diverge => exact h1

theorem stays_same {α : Type} {m : M App α} (h : ∀ a, (m a).2.le = a.le ∧ (m a).2.setEnvironment = a.setEnvironment) :
    Stays (W := W) m := fun _ _ a ha =>
  ⟨by rw [(h a).1]; exact ha.names, by rw [(h a).1]; exact ha.build, by rw [(h a).1]; exact ha.force,
    by rw [(h a).2]; exact ha.lists⟩

theorem stays_name : Stays (W := W) (App.onNames (LE.getParsedEnvName W.tool)) := by
  intro b f a ha
  obtain ⟨l', h1, h2, h3⟩ := parsed_step ha.names
  unfold App.onNames
  rw [h1]
  exact ⟨h2, h3.1.trans ha.build, h3.2.trans ha.force, ha.lists⟩

theorem stays_set {α : Type} {m : M State α} (h : KeepsLists (Lists W) m) : Stays (W := W) (App.onSet W m) := by
  intro b f a ha
  refine ⟨ha.names, ha.build, ha.force, ?_⟩
  exact h { obj := a.setEnvironment.getD (Obj.fresh W.env []), environ := a.environ, files := a.files } ha.lists

theorem stays_load (hn : NoHookOptions W.env) : Stays (W := W) (App.load W) := by
  refine Stays.bind (stays_set (keepsLists_obj ?_)) fun _ => stays_same fun _ => ⟨rfl, rfl⟩
  have h := (lists_inv hn).exec .assertFile (fun s i f h => by cases h)
  intro o ho
  have h : Lists W ((assertFile W.env W.tool.fuel [] [] >>= fun r => pure (EdVal.nat r)) o).2.self := h o ho
  rw [M.bind_def] at h
  cases hx : assertFile W.env W.tool.fuel [] [] o with
  | mk x o' =>
    rw [hx] at h
    cases x <;> exact h

theorem stays_loadOnce (hn : NoHookOptions W.env) : Stays (W := W) (App.loadOnce W) := by
  unfold App.loadOnce
  refine Stays.bind (stays_same fun _ => ⟨rfl, rfl⟩) fun a => ?_
  split
  · exact stays_same fun _ => ⟨rfl, rfl⟩
  · exact stays_load hn

theorem stays_apply (hn : NoHookOptions W.env) : Stays (W := W) (App.applyEnv W) := by
  refine (stays_loadOnce hn).bind fun _ => stays_name.bind fun q => ?_
  refine (stays_set (keepsLists_apply (lists_inv hn) q)).bind fun r => ?_
  split <;> exact stays_same fun _ => ⟨rfl, rfl⟩

theorem stays_writeOne (hn : NoHookOptions W.env) (file : Str) : Stays (W := W) (App.writeOne W file) := by
  refine Stays.bind (stays_same fun _ => ⟨rfl, rfl⟩) fun _ => stays_name.bind fun q => ?_
  refine (stays_set ?_).bind fun r => stays_name.bind fun q => ?_
  · unfold writeScript
    rw [if_neg (by decide)]
    exact (keepsLists_script (lists_inv hn) q true true true py!"bash").bind fun _ => keepsLists_same fun _ => rfl
  · refine Stays.bind (stays_same fun _ => ⟨rfl, rfl⟩) fun a => stays_same fun _ => ⟨rfl, rfl⟩

theorem stays_write (hn : NoHookOptions W.env) (tmp : Str) (output : Option Str) : Stays (W := W) (App.write W tmp output) := by
  refine (stays_loadOnce hn).bind fun _ => Stays.bind ?_ fun _ => stays_same fun _ => ⟨rfl, rfl⟩
  generalize tmp :: output.toList = files
  induction files with
  | nil => exact stays_same fun _ => ⟨rfl, rfl⟩
  | cons file files ih => exact (stays_writeOne hn file).bind fun _ => ih

theorem sound_new (b : Str) (f : Bool) (environ : Environ) (files : Dict Str Str) :
    Sound (W := W) b f (App.new b f environ files) :=
  ⟨leInv_new b f, rfl, rfl, fun t l h => by cases h⟩

theorem sound_run (hn : NoHookOptions W.env) (ops : List AppOp) {b : Str} {f : Bool} {a : App} (ha : Sound (W := W) b f a) :
    Sound (W := W) (AppOp.buildAfter b ops) f (AppOp.run W ops a) := by
  induction ops generalizing b a with
  | nil => exact ha
  | cons op ops ih =>
    cases op with
    | name op =>
      obtain ⟨l', h1, h2, h3, h4⟩ := le_exec ha.names op
      have key : ∀ b', l'.buildName = b' → Sound (W := W) b' f ((AppOp.name op).after W a) := by
        intro b' hb
        show Sound b' f { a with le := (LeOp.exec W.tool op a.le).2 }
        rw [h1]
        exact ⟨h2, hb, h3.trans ha.force, ha.lists⟩
      cases op with
      | setBuildName b' => exact ih (key b' h4)
      | systemName => exact ih (key b (h4.trans ha.build))
      | parsedEnvName => exact ih (key b (h4.trans ha.build))
      | strippedBuildName => exact ih (key b (h4.trans ha.build))
    | load => exact ih (stays_load hn _ _ _ ha)
    | apply => exact ih (stays_apply hn _ _ _ ha)
    | write tmp output => exact ih (stays_write hn tmp output _ _ _ ha)

/-! ### Applying -/

/-- `m` writes no file. -/
def NoFile {α : Type} (m : M State α) : Prop := ∀ S, (m S).2.files = S.files

theorem NoFile.bind {α β : Type} {m : M State α} {g : α → M State β} (h : NoFile m) (hg : ∀ x, NoFile (g x)) :
    NoFile (m >>= g) := by
  intro S
  have h1 := h S
  rw [M.bind_def]
  cases hm : m S with
  | mk o S' =>
    rw [hm] at h1
    cases o with
    | ok x => exact (hg x S').trans h1
    | exc e => exact h1
    | diverge => exact h1

theorem noFile_obj {α : Type} (m : M (Obj Shared Actions) α) : NoFile (onObj m) := fun _ => rfl
theorem noFile_env {α : Type} (m : M Environ α) : NoFile (onEnv m) := fun _ => rfl
theorem noFile_pure {α : Type} (x : α) : NoFile (pure x : M State α) := fun _ => rfl

theorem noFile_apply (sys : Sys) (E : Env Shared Actions) (n : Nat) (s : Str) : NoFile (SetEnv.apply sys E n s) := by
  refine (noFile_obj _).bind fun _ => NoFile.bind ?_ fun l => ?_
  · intro S
    unfold actionsOf
    rw [M.read_bind]
    cases Dict.get? S.obj.self s <;> rfl
  · generalize (0 : Int) = acc
    induction l generalizing acc with
    | nil => exact noFile_pure _
    | cons a l ih =>
      refine NoFile.bind ?_ fun r => ih _
      cases a with
      | envvar op name value =>
        refine (noFile_obj _).bind fun _ => (noFile_env _).bind fun out => ?_
        split
        · exact (noFile_obj _).bind fun _ => noFile_pure _
        · exact noFile_pure _
      | module op name value =>
        refine (noFile_obj _).bind fun _ => (noFile_env _).bind fun out => ?_
        split
        · exact (noFile_obj _).bind fun _ => noFile_pure _
        · exact noFile_pure _

/-- The outcome of `apply_env`, from that of `apply`. -/
def asUnit : Out Int → Out Unit
  | .ok i => if i ≠ 0 then .exc .runtimeError else .ok ()
  | .exc e => .exc e
  | .diverge => .diverge

theorem goes_of_runAll (ms : List (M Environ Int)) (env : Environ) :
    Goes ms env (asUnit (runAll W.env ms 0 env).1) (runAll W.env ms 0 env).2.1 := by
  induction ms generalizing env with
  | nil => exact .done
  | cons m ms ih =>
    unfold runAll
    cases hm : m env with
    | mk o env' =>
      cases o with
      | exc e => exact .raises hm
      | diverge => exact .hangs hm
      | ok r =>
        dsimp only
        by_cases hr : r = 0
        · subst hr
          rw [if_pos rfl]
          exact .step hm (ih env')
        · rw [if_neg hr, if_pos (show 2 ≤ W.env.level from (by decide : 2 ≤ 5))]
          exact .status hm hr

/-- Applying an environment, from any state with right lists. -/
theorem apply_cases (hn : NoHookOptions W.env) {S : State} (hS : Lists W S.obj.self) (q : Str) :
    (∃ l ms, EnvActions W q l ∧ Program W.sys l ms ∧
      Dict.get? (SetEnv.apply W.sys W.env W.tool.fuel q S).2.obj.self q = some l ∧
      ((∀ x ∈ l, Clean x) →
        (SetEnv.apply W.sys W.env W.tool.fuel q S).1 = (runAll W.env ms 0 S.environ).1 ∧
        (SetEnv.apply W.sys W.env W.tool.fuel q S).2.environ = (runAll W.env ms 0 S.environ).2.1)) ∨
    ((∀ i, (SetEnv.apply W.sys W.env W.tool.fuel q S).1 ≠ .ok i) ∧
      (SetEnv.apply W.sys W.env W.tool.fuel q S).2.environ = S.environ) := by
  cases hg : edGetItem W.env W.tool.fuel q S.obj with
  | mk x o₁ =>
    have ho : Lists W o₁.self := by
      have := (lists_inv hn).options q S.obj hS
      rw [show edOptions W.env W.tool.fuel q S.obj = _ from hg] at this
      exact this
    by_cases hx : (∃ v, x = .ok v) ∨ x = .exc .keyError
    · cases hl : Dict.get? o₁.self q with
      | none =>
        rw [C48_no_list W.sys _ S hg hx hl]
        exact .inr ⟨by simp, rfl⟩
      | some l =>
        obtain ⟨hEA, _⟩ := ho q l hl
        obtain ⟨cs, h1, h2⟩ := hEA
        obtain ⟨ms, h4, _⟩ := C48_program W.sys h2
        refine .inl ⟨l, ms, ⟨cs, h1, h2⟩, h4, ?_, fun hc => ?_⟩
        · unfold SetEnv.apply
          have h1 : onObj (ignoreKeyError (edGetItem W.env W.tool.fuel q)) S = (.ok (), { S with obj := o₁ }) := by
            unfold onObj ignoreKeyError
            rw [hg]
            rcases hx with ⟨v, rfl⟩ | rfl <;> rfl
          have h2 : actionsOf q { S with obj := o₁ } = (.ok l, { S with obj := o₁ }) := by
            unfold actionsOf
            rw [M.read_bind, hl]
            rfl
          rw [M.bind_def, h1]
          dsimp only
          rw [M.bind_def, h2]
          exact keepsLists_applyLoop (P := fun self => Dict.get? self q = some l) l 0 { S with obj := o₁ } hl
        · rw [C48_apply W.sys _ S hg hx hl h4 hc]
          exact ⟨rfl, rfl⟩
    · refine .inr ?_
      cases x with
      | ok v => exact absurd (.inl ⟨v, rfl⟩) hx
      | exc e =>
        have he : e ≠ .keyError := fun h => hx (.inr (h ▸ rfl))
        rw [C48_lookup_raises W.sys _ S he hg]
        exact ⟨by simp, rfl⟩
      | diverge =>
        unfold SetEnv.apply
        have h1 : onObj (ignoreKeyError (edGetItem W.env W.tool.fuel q)) S = (.diverge, { S with obj := o₁ }) := by
          unfold onObj ignoreKeyError
          rw [hg]
        rw [M.bind_def, h1]
        exact ⟨by simp, rfl⟩

/-! ### The steps of the tool -/

theorem parsedRes_iff (b : Str) (f : Bool) (q : Str) : parsedRes W.tool b f = .ok q ↔ EnvironmentIs W.tool b f q := by
  rw [← C55_environment b f q]
  obtain ⟨_, h, _⟩ := parsed_step (leInv_new (T := W.tool) b f)
  rw [h]
  rfl

/-- The object of `set_environment`. -/
def App.obj (W : Site) (a : App) : Obj Shared Actions := a.setEnvironment.getD (Obj.fresh W.env [])

/-- The state of SetEnvironment. -/
def App.state (W : Site) (a : App) : State := { obj := a.obj W, environ := a.environ, files := a.files }

theorem loadOnce_keeps (a : App) :
    (App.loadOnce W a).2.environ = a.environ ∧ (App.loadOnce W a).2.files = a.files ∧ (App.loadOnce W a).2.le = a.le ∧
      (App.loadOnce W a).2.setEnvironment.isSome = true := by
  unfold App.loadOnce
  rw [M.read_bind]
  by_cases h : a.setEnvironment.isSome = true
  · rw [if_pos h]; exact ⟨rfl, rfl, rfl, h⟩
  · rw [if_neg h]
    unfold App.load
    rw [M.bind_def]
    unfold App.onSet
    dsimp only
    cases hx : onObj (assertFile W.env W.tool.fuel [] [])
        { obj := a.setEnvironment.getD (Obj.fresh W.env []), environ := a.environ, files := a.files } with
    | mk o S =>
      have h1 := noFile_obj (assertFile W.env W.tool.fuel [] [])
        { obj := a.setEnvironment.getD (Obj.fresh W.env []), environ := a.environ, files := a.files }
      have h2 : (onObj (assertFile W.env W.tool.fuel [] [])
        { obj := a.setEnvironment.getD (Obj.fresh W.env []), environ := a.environ, files := a.files }).2.environ = a.environ := rfl
      rw [hx] at h1 h2
      cases o <;> exact ⟨h2, h1, rfl, rfl⟩

theorem loadOnce_again {a : App} (h : a.setEnvironment.isSome = true) : App.loadOnce W a = (.ok (), a) := by
  unfold App.loadOnce
  rw [M.read_bind, if_pos h]
  rfl

theorem name_step {b : Str} {f : Bool} {a : App} (ha : Sound (W := W) b f a) :
    ∃ l', App.onNames (LE.getParsedEnvName W.tool) a = (parsedRes W.tool b f, { a with le := l' }) ∧
      Sound (W := W) b f { a with le := l' } := by
  obtain ⟨l', h1, h2, h3⟩ := parsed_step ha.names
  refine ⟨l', ?_, h2, h3.1.trans ha.build, h3.2.trans ha.force, ha.lists⟩
  unfold App.onNames
  rw [h1, ha.build, ha.force]

theorem apply_none {a : App} {o : Out Unit} {a1 : App} (h : App.loadOnce W a = (o, a1)) (ho : o ≠ .ok ()) :
    App.applyEnv W a = (o, a1) := by
  unfold App.applyEnv
  rw [M.bind_def, h]
  cases o with
  | ok u => exact absurd rfl ho
  | exc e => rfl
  | diverge => rfl

/-- `apply_env` once the object has been loaded and the name is known. -/
theorem apply_named {b : Str} {f : Bool} {a a1 : App} (ha : Sound (W := W) b f a1) (h : App.loadOnce W a = (.ok (), a1))
    {q : Str} (hq : parsedRes W.tool b f = .ok q) :
    (App.applyEnv W a).1 = asUnit (SetEnv.apply W.sys W.env W.tool.fuel q (a1.state W)).1 ∧
      (App.applyEnv W a).2.setEnvironment = some (SetEnv.apply W.sys W.env W.tool.fuel q (a1.state W)).2.obj ∧
      (App.applyEnv W a).2.environ = (SetEnv.apply W.sys W.env W.tool.fuel q (a1.state W)).2.environ ∧
      (App.applyEnv W a).2.files = a1.files := by
  obtain ⟨l', h1, _⟩ := name_step ha
  rw [hq] at h1
  unfold App.applyEnv
  rw [M.bind_def, h]
  dsimp only
  rw [M.bind_def, h1]
  dsimp only
  rw [M.bind_def]
  have hf := noFile_apply W.sys W.env W.tool.fuel q (a1.state W)
  have hs : App.onSet W (SetEnv.apply W.sys W.env W.tool.fuel q) { a1 with le := l' } =
      ((SetEnv.apply W.sys W.env W.tool.fuel q (a1.state W)).1,
        { a1 with le := l', setEnvironment := some (SetEnv.apply W.sys W.env W.tool.fuel q (a1.state W)).2.obj,
                  environ := (SetEnv.apply W.sys W.env W.tool.fuel q (a1.state W)).2.environ,
                  files := (SetEnv.apply W.sys W.env W.tool.fuel q (a1.state W)).2.files }) := rfl
  rw [hs]
  generalize SetEnv.apply W.sys W.env W.tool.fuel q (a1.state W) = z at hf ⊢
  obtain ⟨x, S⟩ := z
  cases x with
  | ok i =>
    dsimp only
    by_cases hi : i ≠ 0
    · rw [if_pos hi]; exact ⟨by rw [asUnit, if_pos hi]; rfl, rfl, rfl, hf⟩
    · rw [if_neg hi]; exact ⟨by rw [asUnit, if_neg hi]; rfl, rfl, rfl, hf⟩
  | exc e => exact ⟨rfl, rfl, rfl, hf⟩
  | diverge => exact ⟨rfl, rfl, rfl, hf⟩

theorem apply_unnamed {b : Str} {f : Bool} {a a1 : App} (ha : Sound (W := W) b f a1) (h : App.loadOnce W a = (.ok (), a1))
    (hq : ∀ q, parsedRes W.tool b f ≠ .ok q) :
    (∀ u, (App.applyEnv W a).1 ≠ .ok u) ∧ (∀ e, parsedRes W.tool b f = .exc e → (App.applyEnv W a).1 = .exc e) ∧
      (App.applyEnv W a).2.environ = a1.environ ∧ (App.applyEnv W a).2.files = a1.files := by
  obtain ⟨l', h1, _⟩ := name_step ha
  unfold App.applyEnv
  rw [M.bind_def, h]
  dsimp only
  rw [M.bind_def, h1]
  cases hp : parsedRes W.tool b f with
  | ok q => exact absurd hp (hq q)
  | exc e => exact ⟨by simp, by simp, rfl, rfl⟩
  | diverge => exact ⟨by simp, by simp, rfl, rfl⟩

/-! ### Writing -/

/-- The script of an environment, from any state with right lists. -/
theorem gen_cases (hn : NoHookOptions W.env) {S : State} (hS : Lists W S.obj.self) (q : Str) :
    (∃ l ls, EnvActions W q l ∧ CommandLines py!"bash" l ls ∧
      (generateScript W.sys W.env W.tool.fuel q true true true py!"bash" S).1 =
        .ok (scriptText W.sys py!"bash" true true (some ls)) ∧
      Dict.get? (generateScript W.sys W.env W.tool.fuel q true true true py!"bash" S).2.obj.self q = some l) ∨
    ∀ t, (generateScript W.sys W.env W.tool.fuel q true true true py!"bash" S).1 ≠ .ok t := by
  have main : ∀ {S₁ : State} {l : List Action}, SetEnv.Ready W.env W.tool.fuel q S S₁ → Dict.get? S₁.obj.self q = some l →
      EnvActions W q l →
      (∃ l ls, EnvActions W q l ∧ CommandLines py!"bash" l ls ∧
      (generateScript W.sys W.env W.tool.fuel q true true true py!"bash" S).1 =
        .ok (scriptText W.sys py!"bash" true true (some ls)) ∧
      Dict.get? (generateScript W.sys W.env W.tool.fuel q true true true py!"bash" S).2.obj.self q = some l) ∨
    ∀ t, (generateScript W.sys W.env W.tool.fuel q true true true py!"bash" S).1 ≠ .ok t := by
    intro S₁ l hr hl hE
    obtain ⟨cs, h1, h2⟩ := hE
    rcases C49_lines_or_incomplete (.inl rfl) h2 with ⟨ls, hls⟩ | ⟨l₁, x, l₂, ls, rfl, hls, ha⟩
    · rw [C49_text W.sys _ (.inl rfl) hr hl hls]
      exact .inl ⟨l, ls, ⟨cs, h1, h2⟩, hls, rfl, hl⟩
    · rw [C49_incomplete W.sys _ (.inl rfl) hr hl hls ha]
      exact .inr fun t h => by cases h
  cases hl : Dict.get? S.obj.self q with
  | some l => exact main (.inl ⟨by rw [hl]; simp, rfl⟩) hl (hS q l hl).1
  | none =>
    cases hp : parseSection W.env W.tool.fuel q true true S.obj with
    | mk x o' =>
      cases x with
      | ok r =>
        obtain ⟨cs, l, h1, h2, _, h4, _⟩ := C47_actions hn hp
        exact main (S₁ := { S with obj := o' }) (.inr ⟨hl, r, by rw [hp], by rw [hp]⟩) h4 ⟨cs, h1, h2⟩
      | exc e =>
        rw [C49_parse_raises W.sys _ (.inl rfl) hl hp]
        exact .inr fun t h => by cases h
      | diverge =>
        rw [generate_unparsed (.inl rfl) hl hp _ (.inr ⟨rfl, rfl⟩)]
        exact .inr fun t h => by cases h

/-- What `write_actions_to_file` does after the old file has been removed. -/
theorem writeScript_apply (S : State) (file q : Str) :
    writeScript W.sys W.env W.tool.fuel file q true true true py!"bash" S =
      match generateScript W.sys W.env W.tool.fuel q true true true py!"bash" S with
      | (.ok t, S') => (.ok 0, { S' with files := Dict.set S'.files file t })
      | (.exc e, S') => (.exc e, S')
      | (.diverge, S') => (.diverge, S') := by
  unfold writeScript
  rw [if_neg (by decide), M.bind_def]
  cases generateScript W.sys W.env W.tool.fuel q true true true py!"bash" S with
  | mk x S' => cases x <;> rfl

/-- The state in which `writeOne` makes the text. -/
def App.cleared (W : Site) (a : App) (file : Str) : State :=
  { obj := a.obj W, environ := a.environ, files := dictDel a.files file }

theorem writeOne_ok {b : Str} {f : Bool} {a : App} (ha : Sound (W := W) b f a) {q : Str}
    (hq : parsedRes W.tool b f = .ok q) (file t : Str)
    (hg : (generateScript W.sys W.env W.tool.fuel q true true true py!"bash" (a.cleared W file)).1 = .ok t) :
    ∃ a', App.writeOne W file a = (.ok (), a') ∧ a'.environ = a.environ ∧
      a'.setEnvironment = some (generateScript W.sys W.env W.tool.fuel q true true true py!"bash" (a.cleared W file)).2.obj ∧
      Dict.get? a'.files file = some (t ++ py!"export LOADED_ENV_NAME=" ++ q) ∧
      ∀ g, g ≠ file → Dict.get? a'.files g = Dict.get? a.files g := by
  obtain ⟨hk1, hk2⟩ := generate_keeps W.sys W.env W.tool.fuel q true true true py!"bash" (a.cleared W file)
  let a1 : App := { a with files := dictDel a.files file }
  have ha1 : Sound (W := W) b f a1 := ⟨ha.names, ha.build, ha.force, ha.lists⟩
  obtain ⟨l1, h1, hs1⟩ := name_step ha1
  rw [hq] at h1
  have hw := writeScript_apply (W := W) (a.cleared W file) file q
  cases hgen : generateScript W.sys W.env W.tool.fuel q true true true py!"bash" (a.cleared W file) with
  | mk x S' =>
    rw [hgen] at hg hk1 hk2 hw
    dsimp only at hg hk1 hk2
    subst hg
    dsimp only at hw
    let a2 : App := { a1 with le := l1, setEnvironment := some S'.obj, environ := S'.environ, files := Dict.set S'.files file t }
    have h2 : App.onSet W (writeScript W.sys W.env W.tool.fuel file q true true true py!"bash") { a1 with le := l1 } = (.ok 0, a2) := by
      have : App.onSet W (writeScript W.sys W.env W.tool.fuel file q true true true py!"bash") { a1 with le := l1 } =
        ((writeScript W.sys W.env W.tool.fuel file q true true true py!"bash" (a.cleared W file)).1,
          { a1 with le := l1, setEnvironment := some (writeScript W.sys W.env W.tool.fuel file q true true true py!"bash" (a.cleared W file)).2.obj,
                    environ := (writeScript W.sys W.env W.tool.fuel file q true true true py!"bash" (a.cleared W file)).2.environ,
                    files := (writeScript W.sys W.env W.tool.fuel file q true true true py!"bash" (a.cleared W file)).2.files }) := rfl
      rw [this, hw]
    have hs2 : LEInv W.tool a2.le ∧ a2.le.buildName = b ∧ a2.le.force = f := ⟨hs1.names, hs1.build, hs1.force⟩
    obtain ⟨l2, h3, hinv, hb, hf⟩ := parsed_step hs2.1
    rw [hs2.2.1, hs2.2.2, hq] at h3
    have h4 : App.onNames (LE.getParsedEnvName W.tool) a2 = (.ok q, { a2 with le := l2 }) := by
      unfold App.onNames
      rw [h3]
    let text : Str := (Dict.get? a2.files file).getD [] ++ py!"export LOADED_ENV_NAME=" ++ q
    have e1 : (M.modify fun a => { a with files := dictDel a.files file } : M App Unit) a = (.ok (), a1) := rfl
    have hstep : App.writeOne W file a = (.ok (), { a2 with le := l2, files := Dict.set a2.files file text }) := by
      unfold App.writeOne
      rw [M.bind_def, e1]
      dsimp only
      rw [M.bind_def, h1]
      dsimp only
      rw [M.bind_def, h2]
      dsimp only
      rw [M.bind_def, h4]
      rfl
    refine ⟨_, hstep, hk1, rfl, ?_, fun g hg => ?_⟩
    · show Dict.get? (Dict.set (Dict.set S'.files file t) file _) file = _
      rw [Dict.get?_set_self]
      show some ((Dict.get? (Dict.set S'.files file t) file).getD [] ++ _ ++ _) = _
      rw [Dict.get?_set_self]
      rfl
    · show Dict.get? (Dict.set (Dict.set S'.files file t) file _) g = _
      rw [Dict.get?_set_ne _ _ hg, Dict.get?_set_ne _ _ hg, hk2]
      exact get?_dictDel_ne _ hg

theorem writeOne_fails {b : Str} {f : Bool} {a : App} (ha : Sound (W := W) b f a) (file : Str)
    (hg : ∀ q, parsedRes W.tool b f = .ok q →
      ∀ t, (generateScript W.sys W.env W.tool.fuel q true true true py!"bash" (a.cleared W file)).1 ≠ .ok t) :
    (∀ u, (App.writeOne W file a).1 ≠ .ok u) ∧ (App.writeOne W file a).2.environ = a.environ ∧
      Dict.get? (App.writeOne W file a).2.files file = none ∧
      ∀ g, g ≠ file → Dict.get? (App.writeOne W file a).2.files g = Dict.get? a.files g := by
  let a1 : App := { a with files := dictDel a.files file }
  have ha1 : Sound (W := W) b f a1 := ⟨ha.names, ha.build, ha.force, ha.lists⟩
  obtain ⟨l1, h1, hs1⟩ := name_step ha1
  have hstep : App.writeOne W file a = App.writeOne W file a := rfl
  conv at hstep =>
    rhs
    unfold App.writeOne
    rw [M.bind_def]
  have e1 : (M.modify fun a => { a with files := dictDel a.files file } : M App Unit) a = (.ok (), a1) := rfl
  rw [e1] at hstep
  dsimp only at hstep
  rw [M.bind_def, h1] at hstep
  cases hp : parsedRes W.tool b f with
  | exc e =>
    rw [hp] at hstep
    rw [hstep]
    exact ⟨by simp, rfl, get?_dictDel_self _ _, fun g hg => get?_dictDel_ne _ hg⟩
  | diverge =>
    rw [hp] at hstep
    rw [hstep]
    exact ⟨by simp, rfl, get?_dictDel_self _ _, fun g hg => get?_dictDel_ne _ hg⟩
  | ok q =>
    rw [hp] at hstep
    dsimp only at hstep
    rw [M.bind_def] at hstep
    have hg := hg q hp
    obtain ⟨hk1, hk2⟩ := generate_keeps W.sys W.env W.tool.fuel q true true true py!"bash" (a.cleared W file)
    have hw := writeScript_apply (W := W) (a.cleared W file) file q
    have this : App.onSet W (writeScript W.sys W.env W.tool.fuel file q true true true py!"bash") { a1 with le := l1 } =
        ((writeScript W.sys W.env W.tool.fuel file q true true true py!"bash" (a.cleared W file)).1,
          { a1 with le := l1, setEnvironment := some (writeScript W.sys W.env W.tool.fuel file q true true true py!"bash" (a.cleared W file)).2.obj,
                    environ := (writeScript W.sys W.env W.tool.fuel file q true true true py!"bash" (a.cleared W file)).2.environ,
                    files := (writeScript W.sys W.env W.tool.fuel file q true true true py!"bash" (a.cleared W file)).2.files }) := rfl
    rw [this, hw] at hstep
    cases hgen : generateScript W.sys W.env W.tool.fuel q true true true py!"bash" (a.cleared W file) with
    | mk x S' =>
      rw [hgen] at hg hk1 hk2 hstep
      have hfin : ∀ g, Dict.get? S'.files g = Dict.get? (dictDel a.files file) g := fun g => by rw [hk2]; rfl
      cases x with
      | ok t => exact absurd rfl (hg t)
      | exc e =>
        rw [hstep]
        exact ⟨by simp, hk1, (hfin file).trans (get?_dictDel_self _ _), fun g hg => (hfin g).trans (get?_dictDel_ne _ hg)⟩
      | diverge =>
        rw [hstep]
        exact ⟨by simp, hk1, (hfin file).trans (get?_dictDel_self _ _), fun g hg => (hfin g).trans (get?_dictDel_ne _ hg)⟩

/-! ### The check of the whole file -/

/-- A section that has been read and has its list. -/
def Stored (o : Obj Shared Actions) (s : Str) : Prop := s ∈ o.checked ∧ ∃ l, Dict.get? o.self s = some l

theorem edGet_stores (hn : NoHookOptions W.env) {s : Str} {o : Obj Shared Actions}
    (ho : ∀ t ∈ o.checked, Stored o t) {d : Options} {o' : Obj Shared Actions}
    (h : edGet W.env W.tool.fuel s o = (.ok d, o')) :
    (∀ t ∈ o'.checked, Stored o' t) ∧ s ∈ o'.checked ∧ ∀ t ∈ o.checked, t ∈ o'.checked := by
  rw [edGet_apply] at h
  by_cases hc : s ∈ o.checked
  · rw [parseOwner_apply, if_neg (by simp [hc])] at h
    have e : o = o' := congrArg Prod.snd h
    subst e
    exact ⟨ho, hc, fun _ h => h⟩
  · by_cases hs : s = []
    · subst hs
      rw [parseOwner_apply, if_pos (.inl hc), parseSection_nil] at h
      cases h
    · rw [parseOwner_first hs _ (.inl hc)] at h
      cases hp : parseSection W.env W.tool.fuel s true true o with
      | mk x o1 =>
        rw [hp] at h
        have hk := parseSection_checked W.env W.tool.fuel hs true true o
        rw [hp] at hk
        cases x with
        | exc e => cases h
        | diverge => cases h
        | ok r =>
          have e : o1 = o' := congrArg Prod.snd h
          subst e
          obtain ⟨cs, l, _, _, _, h4, h5⟩ := C47_actions hn hp
          have hm : ∀ t, t ∈ o1.checked ↔ t = s ∨ t ∈ o.checked := fun t => by
            rw [show o1.checked = setAdd o.checked s from hk, mem_setAdd]
          refine ⟨fun t ht => ⟨ht, ?_⟩, (hm s).mpr (.inl rfl), fun t ht => (hm t).mpr (.inr ht)⟩
          by_cases hts : t = s
          · exact ⟨l, hts ▸ h4⟩
          · rcases (hm t).mp ht with h | h
            · exact absurd h hts
            · obtain ⟨_, l', hl'⟩ := ho t h
              exact ⟨l', (h5 t hts).trans hl'⟩

theorem assertLoop_stores (hn : NoHookOptions W.env) (known files : List Str) (l : List Str) {o : Obj Shared Actions}
    (ho : ∀ t ∈ o.checked, Stored o t) {b : Bool} {o' : Obj Shared Actions}
    (h : assertLoop W.env W.tool.fuel known files l o = (.ok b, o')) :
    (∀ t ∈ o'.checked, Stored o' t) ∧ (∀ s ∈ l, s ∈ o'.checked) ∧ ∀ t ∈ o.checked, t ∈ o'.checked := by
  induction l generalizing o b with
  | nil => cases h; exact ⟨ho, by simp, fun _ h => h⟩
  | cons s l ih =>
    change (assertSection W.env W.tool.fuel known files s false >>= fun err =>
      assertLoop W.env W.tool.fuel known files l >>= fun rest => pure (err.isSome || rest)) o = _ at h
    have hq := assertSection_quiet (E := W.env) (n := W.tool.fuel) (s := s) known files o
    have ha := assertSection_apply (E := W.env) (n := W.tool.fuel) (s := s) known files false o
    rw [M.bind_def] at h
    cases hg : edGet W.env W.tool.fuel s o with
    | mk x o1 =>
      rw [hg] at ha hq
      cases x with
      | exc e => rw [ha] at h; cases h
      | diverge => rw [ha] at h; cases h
      | ok d =>
        obtain ⟨h1, h2, h3⟩ := edGet_stores hn ho hg
        cases hs : assertSection W.env W.tool.fuel known files s false o with
        | mk y o2 =>
          rw [hs] at hq h
          have hq : o2 = o1 := hq
          subst hq
          cases y with
          | exc e => cases h
          | diverge => cases h
          | ok err =>
            dsimp only at h
            rw [M.bind_def] at h
            cases hl : assertLoop W.env W.tool.fuel known files l o2 with
            | mk z o3 =>
              rw [hl] at h
              cases z with
              | exc e => cases h
              | diverge => cases h
              | ok rest =>
                have e : o3 = o' := congrArg Prod.snd h
                subst e
                obtain ⟨i1, i2, i3⟩ := ih h1 hl
                refine ⟨i1, fun t ht => ?_, fun t ht => i3 t (h3 t ht)⟩
                rcases List.mem_cons.mp ht with rfl | ht
                · exact i3 _ h2
                · exact i2 t ht

/-- After a check that was passed, every section has its list. -/
theorem load_stores (hn : NoHookOptions W.env) {a a1 : App} (hs : a.setEnvironment = none)
    (h : App.loadOnce W a = (.ok (), a1)) : ∀ s ∈ W.specs.sectionNames, Stored (a1.obj W) s := by
  unfold App.loadOnce at h
  rw [M.read_bind, if_neg (by rw [hs]; decide)] at h
  unfold App.load at h
  rw [M.bind_def] at h
  have e : App.onSet W (onObj (assertFile W.env W.tool.fuel [] [])) a =
      ((assertFile W.env W.tool.fuel [] [] (Obj.fresh W.env [])).1,
        { a with setEnvironment := some (assertFile W.env W.tool.fuel [] [] (Obj.fresh W.env [])).2 }) := by
    unfold App.onSet onObj
    rw [hs]
    rfl
  rw [e] at h
  cases hf : assertFile W.env W.tool.fuel [] [] (Obj.fresh W.env []) with
  | mk x o =>
    rw [hf] at h
    cases x with
    | exc e => cases h
    | diverge => cases h
    | ok k =>
      have e : a1 = { a with setEnvironment := some o } := (congrArg Prod.snd h).symm
      subst e
      intro s hs
      show Stored o s
      unfold assertFile at hf
      rw [M.bind_def] at hf
      cases hl : assertLoop W.env W.tool.fuel [] [] W.env.cfg.sectionNames (Obj.fresh W.env []) with
      | mk y o1 =>
        rw [hl] at hf
        cases y with
        | exc e => cases hf
        | diverge => cases hf
        | ok b =>
          obtain ⟨h1, h2, _⟩ := assertLoop_stores hn [] [] _ (fun t ht => by cases ht) hl
          cases b with
          | true => cases hf
          | false =>
            have e : o1 = o := congrArg Prod.snd hf
            subst e
            exact h1 s (h2 s hs)

/-- The check of a new object. -/
theorem load_cases (a : App) (hs : a.setEnvironment = none) :
    match (App.loadOnce W a).1 with
    | .ok _ => ∀ s ∈ W.specs.sectionNames, ∀ k, ¬ Unhandled W.env s k
    | .exc e => (e = .valueError ∧ ∃ s ∈ W.specs.sectionNames, ∃ k, Unhandled W.env s k) ∨
        ∃ pre s post, W.specs.sectionNames = pre ++ s :: post ∧
          (edGet W.env W.tool.fuel s (EdOp.run W.env W.tool.fuel (pre.map .get) (Obj.fresh W.env []))).1 = .exc e
    | .diverge => ∃ pre s post, W.specs.sectionNames = pre ++ s :: post ∧
          (edGet W.env W.tool.fuel s (EdOp.run W.env W.tool.fuel (pre.map .get) (Obj.fresh W.env []))).1 = .diverge := by
  have hx := C30_assert_file_exact (E := W.env) (n := W.tool.fuel) (m := W.tool.fuel) [] [] (fun s _ => trivial) [] []
  have e : App.onSet W (onObj (assertFile W.env W.tool.fuel [] [])) a =
      ((assertFile W.env W.tool.fuel [] [] (Obj.fresh W.env [])).1,
        { a with setEnvironment := some (assertFile W.env W.tool.fuel [] [] (Obj.fresh W.env [])).2 }) := by
    unfold App.onSet onObj
    rw [hs]
    rfl
  have hl : (App.loadOnce W a).1 = match (assertFile W.env W.tool.fuel [] [] (Obj.fresh W.env [])).1 with
      | .ok _ => .ok ()
      | .exc e => .exc e
      | .diverge => .diverge := by
    unfold App.loadOnce
    rw [M.read_bind, if_neg (by rw [hs]; decide)]
    unfold App.load
    rw [M.bind_def, e]
    cases (assertFile W.env W.tool.fuel [] [] (Obj.fresh W.env [])).1 <;> rfl
  rw [hl]
  dsimp only [EdOp.run] at hx
  cases hf : (assertFile W.env W.tool.fuel [] [] (Obj.fresh W.env [])).1 with
  | exc e =>
    rw [hf] at hx
    rcases hx with ⟨h1, _, h2⟩ | h
    · exact .inl ⟨h1, h2⟩
    · exact .inr h
  | diverge => rw [hf] at hx; exact hx
  | ok r =>
    rw [hf] at hx
    cases r with
    | zero => exact hx
    | succ r => exact absurd hx.2.1 (show ¬ (5 < 3) by decide)

/-! ### Applying after the check -/

/-- Applying a section that has been read and has its list. -/
theorem apply_stored {S : State} (hS : Lists W S.obj.self) {q : Str} {l : List Action}
    (hc : q ∈ S.obj.checked) (hl : Dict.get? S.obj.self q = some l) :
    ∃ ms, EnvActions W q l ∧ Program W.sys l ms ∧
      ((∀ x ∈ l, Clean x) →
        Goes ms S.environ (asUnit (SetEnv.apply W.sys W.env W.tool.fuel q S).1)
          (SetEnv.apply W.sys W.env W.tool.fuel q S).2.environ) := by
  obtain ⟨⟨cs, h1, h2⟩, _⟩ := hS q l hl
  obtain ⟨ms, h4, _⟩ := C48_program W.sys h2
  have hg : ∃ x, edGetItem W.env W.tool.fuel q S.obj = (x, S.obj) ∧ ((∃ v, x = .ok v) ∨ x = .exc .keyError) := by
    refine ⟨lookup q S.obj, edOptions_checked hc, ?_⟩
    unfold lookup
    cases Dict.get? S.obj.data q with
    | none => exact .inr rfl
    | some d => exact .inl ⟨d, rfl⟩
  obtain ⟨x, hg, hx⟩ := hg
  refine ⟨ms, ⟨cs, h1, h2⟩, h4, fun hcl => ?_⟩
  rw [C48_apply W.sys _ S hg hx hl h4 hcl]
  exact goes_of_runAll ms S.environ

/-- Applying a section that is not there. -/
theorem apply_missing {S : State} (hS : Lists W S.obj.self) {q : Str} (hq : W.specs.hasSection q = false)
    (ho : W.specs.optionNames q = none) :
    SetEnv.apply W.sys W.env W.tool.fuel q S = (.exc .keyError, S) := by
  have hg : edGetItem W.env W.tool.fuel q S.obj = (lookup q S.obj, S.obj) := edOptions_missing hq
  have hx : (∃ v, lookup q S.obj = .ok v) ∨ lookup q S.obj = .exc .keyError := by
    unfold lookup
    cases Dict.get? S.obj.data q with
    | none => exact .inr rfl
    | some d => exact .inl ⟨d, rfl⟩
  refine C48_no_list W.sys _ S hg hx ?_
  cases hl : Dict.get? S.obj.self q with
  | none => rfl
  | some l =>
    have := (hS q l hl).2
    rw [ho] at this
    cases this

/-! ### Writing, whole -/

theorem write_fails_load {tmp : Str} {output : Option Str} {a : App} {o : Out Unit} {a1 : App}
    (h : App.loadOnce W a = (o, a1)) (ho : o ≠ .ok ()) :
    (∀ p, (App.write W tmp output a).1 ≠ .ok p) ∧ (∀ e, o = .exc e → (App.write W tmp output a).1 = .exc e) ∧
      (App.write W tmp output a).2 = a1 := by
  unfold App.write
  rw [M.bind_def, h]
  cases o with
  | ok u => exact absurd rfl ho
  | exc e => exact ⟨by simp, by simp, rfl⟩
  | diverge => exact ⟨by simp, by simp, rfl⟩

theorem writeEach_cons {V α : Type} (x : α) (l : List α) (f : α → M V Unit) (v : V) :
    M.forEach (x :: l) f v = match f x v with
      | (.ok _, v') => M.forEach l f v'
      | (.exc e, v') => (.exc e, v')
      | (.diverge, v') => (.diverge, v') := by
  change (f x >>= fun _ => M.forEach l f) v = _
  rw [M.bind_def]
  cases h : f x v with
  | mk o v' => cases o <;> rfl

/-- `write_load_matching_env` once the object has been loaded. -/
theorem write_cases (hn : NoHookOptions W.env) {b : Str} {f : Bool} {a a1 : App} (ha : Sound (W := W) b f a1)
    (h : App.loadOnce W a = (.ok (), a1)) (tmp : Str) (output : Option Str) :
    (App.write W tmp output a).2.environ = a1.environ ∧
    ((∃ q l ls, parsedRes W.tool b f = .ok q ∧ EnvActions W q l ∧ CommandLines py!"bash" l ls ∧
      (App.write W tmp output a).1 = .ok (output.getD tmp) ∧
      Wrote a1.files (App.write W tmp output a).2.files tmp output (matchingScript W ls q)) ∨
    ((∀ p, (App.write W tmp output a).1 ≠ .ok p) ∧
      (∀ q l ls, parsedRes W.tool b f = .ok q → EnvActions W q l → CommandLines py!"bash" l ls →
        Dict.get? (a1.obj W).self q = none) ∧
      Dict.get? (App.write W tmp output a).2.files tmp = none ∧
      ∀ g, g ≠ tmp → Dict.get? (App.write W tmp output a).2.files g = Dict.get? a1.files g)) := by
  have hw : App.write W tmp output a =
      (M.forEach (tmp :: output.toList) (App.writeOne W) >>= fun _ => pure (output.getD tmp)) a1 := by
    unfold App.write
    rw [M.bind_def, h]
  by_cases hg : ∃ q t, parsedRes W.tool b f = .ok q ∧
      (generateScript W.sys W.env W.tool.fuel q true true true py!"bash" (a1.cleared W tmp)).1 = .ok t
  · obtain ⟨q, t, hq, ht⟩ := hg
    have hL : Lists W (a1.cleared W tmp).obj.self := ha.lists
    rcases gen_cases hn hL q with ⟨l, ls, hE, hls, htext, hst⟩ | hno
    · rw [htext] at ht
      cases ht
      obtain ⟨a2, h2, e2, s2, f2, k2⟩ := writeOne_ok ha hq tmp _ htext
      have ha2 : Sound (W := W) b f a2 := by
        have := stays_writeOne hn tmp b f a1 ha
        rwa [h2] at this
      rw [M.bind_def, writeEach_cons, h2] at hw
      dsimp only at hw
      cases output with
      | none =>
        have hw : App.write W tmp none a = (.ok tmp, a2) := hw
        rw [hw]
        refine ⟨e2, .inl ⟨q, l, ls, hq, hE, hls, rfl, fun g => ⟨fun hg => ?_, fun hg _ => k2 g hg⟩⟩⟩
        rcases hg with rfl | hg
        · exact f2
        · cases hg
      | some out =>
        have hst2 : Dict.get? (a2.cleared W out).obj.self q = some l := by
          show Dict.get? (a2.setEnvironment.getD (Obj.fresh W.env [])).self q = some l
          rw [s2]
          exact hst
        have hready : SetEnv.Ready W.env W.tool.fuel q (a2.cleared W out) (a2.cleared W out) :=
          .inl ⟨by rw [hst2]; simp, rfl⟩
        have htext2 := C49_text W.sys W.env (n := W.tool.fuel) (hdr := true) (sheb := true) (.inl rfl) hready hst2 hls
        obtain ⟨a3, h3, e3, s3, f3, k3⟩ := writeOne_ok ha2 hq out _ (congrArg Prod.fst htext2)
        have hw : App.write W tmp (some out) a = (.ok out, a3) := by
          rw [hw, show (some out).toList = [out] from rfl, writeEach_cons, h3]
          rfl
        rw [hw]
        refine ⟨e3.trans e2, .inl ⟨q, l, ls, hq, hE, hls, rfl, fun g => ⟨fun hg => ?_, fun hg hg' => ?_⟩⟩⟩
        · by_cases hgo : g = out
          · subst hgo; exact f3
          · rcases hg with rfl | hg
            · exact (k3 _ hgo).trans f2
            · cases hg; exact absurd rfl hgo
        · have : g ≠ out := fun h => hg' (h ▸ rfl)
          exact (k3 g this).trans (k2 g hg)
    · exact absurd ht (hno t)
  · obtain ⟨h1, h2, h3, h4⟩ := writeOne_fails ha tmp fun q hq t ht => hg ⟨q, t, hq, ht⟩
    have hsnd : (∀ p, (App.write W tmp output a).1 ≠ .ok p) ∧ (App.write W tmp output a).2 = (App.writeOne W tmp a1).2 := by
      rw [hw, M.bind_def, writeEach_cons]
      cases hx : App.writeOne W tmp a1 with
      | mk o a2 =>
        rw [hx] at h1
        cases o with
        | ok u => exact absurd rfl (h1 u)
        | exc e => exact ⟨by simp, rfl⟩
        | diverge => exact ⟨by simp, rfl⟩
    rw [hsnd.2]
    refine ⟨h2, .inr ⟨hsnd.1, fun q l ls hq hE hls => ?_, h3, h4⟩⟩
    cases hl : Dict.get? (a1.obj W).self q with
    | none => rfl
    | some l' =>
      exfalso
      have hEl : l' = l := envActions_unique (ha.lists q l' hl).1 hE
      subst hEl
      refine hg ⟨q, _, hq, congrArg Prod.fst
        (C49_text W.sys W.env (n := W.tool.fuel) (S := a1.cleared W tmp) (S₁ := a1.cleared W tmp) (hdr := true)
          (sheb := true) (.inl rfl) (.inl ⟨?_, rfl⟩) hl hls)⟩
      show Dict.get? (a1.obj W).self q ≠ none
      rw [hl]; simp

/-! ### Running the script -/

theorem commands_then {sys : Sys} {tools : Bash.Tools} {l : List Action} {ls : List Str} {ms : List (M Environ Int)}
    (hl : CommandLines py!"bash" l ls) (hp : Program sys l ms) {env env' : Environ} (hr : PortableRun sys tools env l)
    (hg : Goes ms env (.ok ()) env') (rest : Str) :
    Bash.runScript tools ((ls.map (· ++ py!"\n")).flatten ++ rest) env = Bash.runScript tools rest env' := by
  induction hl generalizing ms env with
  | nil => cases hp; cases hg; rfl
  | @cons _ cmd _ _ h1 _ ih =>
    cases hp with
    | @cons _ m _ ms hd hp =>
      cases hr with
      | cons hpa hd' hnext =>
        cases does_det hd hd'
        obtain ⟨⟨e1, e2⟩, hn, hh⟩ := Bash.alike_step hpa h1 hd
        rw [List.map_cons, List.flatten_cons, List.append_assoc, List.append_assoc]
        rw [show ∀ t : Str, py!"\n" ++ t = '\n' :: t from fun _ => rfl, Bash.runScript_line tools hn, if_neg hh,
          M.bind_def]
        cases hg with
        | step hm hg =>
          rw [hm] at e1 e2
          rcases e2 with ⟨u, i, h2, h3⟩ | ⟨h2, h3⟩
          · have hx : Bash.exec tools cmd env = (.ok u, _) := Prod.ext h2 e1
            rw [hx]
            exact ih hp (hnext 0 _ hm) hg
          · cases h3

theorem plain_bare {q : Str} (h : PlainName q) : ∀ c ∈ q, Bash.bareChar c = true := fun c hc => (Bash.bare_iff c).2 (h c hc)

/-- The last line of the script. -/
theorem export_line (tools : Bash.Tools) {q : Str} (h : PlainName q) (env : Environ) :
    Bash.runScript tools (py!"export LOADED_ENV_NAME=" ++ q) env = (.ok (), Dict.set env py!"LOADED_ENV_NAME" q) := by
  have hb := plain_bare h
  have hn : '\n' ∉ py!"export LOADED_ENV_NAME=" ++ q := by
    intro hm
    rcases List.mem_append.mp hm with hm | hm
    · exact absurd hm (by decide)
    · exact absurd (hb _ hm) (by decide)
  have hread : Bash.readWords (.gap []) (py!"export LOADED_ENV_NAME=" ++ q) =
      some [⟨false, py!"export"⟩, ⟨false, py!"LOADED_ENV_NAME=" ++ q⟩] := by
    have h1 : Bash.readWords (.gap []) (py!"export LOADED_ENV_NAME=" ++ q) =
        Bash.readWords (.bare [⟨false, py!"export"⟩] py!"LOADED_ENV_NAME=") (q ++ []) := by
      rw [List.append_nil]; rfl
    rw [h1, Bash.readWords_bare _ _ _ _ hb]
    rfl
  have hexec : Bash.exec tools (py!"export LOADED_ENV_NAME=" ++ q) env = (.ok (), Dict.set env py!"LOADED_ENV_NAME" q) := by
    unfold Bash.exec
    rw [hread]
    rfl
  unfold Bash.runScript lines
  rw [splitChar_plain hn]
  unfold Bash.runLines
  rw [if_neg (by rintro (h | h) <;> cases h), M.bind_def, hexec]
  rfl

/-- Sourcing the script. -/
theorem source_matching {tools : Bash.Tools} {l : List Action} {ls : List Str} {ms : List (M Environ Int)}
    (hl : CommandLines py!"bash" l ls) (hp : Program W.sys l ms) {env env' : Environ} (hr : PortableRun W.sys tools env l)
    (hg : Goes ms env (.ok ()) env') {q : Str} (hq : PlainName q) :
    source tools W.sys.bashHeader (matchingScript W ls q) env = (.ok (), Dict.set env' py!"LOADED_ENV_NAME" q) := by
  have htext : matchingScript W ls q = (shebang py!"bash" ++ W.sys.bashHeader) ++
      (py!"\n\n" ++ (banner ++ ((ls.map (· ++ py!"\n")).flatten ++ (py!"\n\n" ++ (py!"export LOADED_ENV_NAME=" ++ q))))) := by
    unfold matchingScript scriptText
    rw [if_pos (by simp), if_pos rfl, if_pos rfl, if_pos rfl]
    simp only [List.append_assoc]
    rfl
  have hpre : ∀ a b : Str, List.isPrefixOf? a (a ++ b) = some b := by
    intro a b
    induction a with
    | nil => rfl
    | cons c a ih => simp [List.isPrefixOf?, ih]
  unfold source
  rw [htext, hpre]
  show Bash.runScript tools _ env = _
  rw [show ∀ t : Str, py!"\n\n" ++ t = [] ++ '\n' :: ([] ++ '\n' :: t) from fun _ => rfl,
    Bash.runScript_comment tools (by simp) (.inl rfl), Bash.runScript_comment tools (by simp) (.inl rfl)]
  have hb : ∀ rest : Str, Bash.runScript tools (banner ++ rest) = Bash.runScript tools rest := by
    intro rest
    show Bash.runScript tools (py!"# -------------------------------------------------" ++ '\n' ::
      (py!"#   S E T E N V I R O N M E N T   C O M M A N D S" ++ '\n' ::
        (py!"# -------------------------------------------------" ++ '\n' :: rest))) = _
    rw [Bash.runScript_comment tools (by decide) (.inr rfl), Bash.runScript_comment tools (by decide) (.inr rfl),
      Bash.runScript_comment tools (by decide) (.inr rfl)]
  rw [hb, commands_then hl hp hr hg, show ∀ t : Str, py!"\n\n" ++ t = [] ++ '\n' :: ([] ++ '\n' :: t) from fun _ => rfl,
    Bash.runScript_comment tools (by simp) (.inl rfl), Bash.runScript_comment tools (by simp) (.inl rfl)]
  exact export_line tools hq env'

/-- If every section can be read, then every section has its list after the check, whatever its outcome. -/
theorem load_stores_all (hn : NoHookOptions W.env) {a : App} (hs : a.setEnvironment = none)
    (hread : ∀ pre s post, W.specs.sectionNames = pre ++ s :: post →
      ∃ d, (edGet W.env W.tool.fuel s (EdOp.run W.env W.tool.fuel (pre.map .get) (Obj.fresh W.env []))).1 = .ok d) :
    ∀ s ∈ W.specs.sectionNames, Stored ((App.loadOnce W a).2.obj W) s := by
  have e : App.onSet W (onObj (assertFile W.env W.tool.fuel [] [])) a =
      ((assertFile W.env W.tool.fuel [] [] (Obj.fresh W.env [])).1,
        { a with setEnvironment := some (assertFile W.env W.tool.fuel [] [] (Obj.fresh W.env [])).2 }) := by
    unfold App.onSet onObj
    rw [hs]
    rfl
  have hobj : (App.loadOnce W a).2.obj W = (assertFile W.env W.tool.fuel [] [] (Obj.fresh W.env [])).2 := by
    unfold App.loadOnce
    rw [M.read_bind, if_neg (by rw [hs]; decide)]
    unfold App.load
    rw [M.bind_def, e]
    cases (assertFile W.env W.tool.fuel [] [] (Obj.fresh W.env [])).1 <;> rfl
  rw [hobj]
  intro s hs
  have hx := assertLoop_exact (E := W.env) (n := W.tool.fuel) [] [] W.specs.sectionNames (Obj.fresh W.env [])
    fun t _ => settled_fresh W.env t []
  unfold assertFile
  rw [M.bind_def]
  cases hl : assertLoop W.env W.tool.fuel [] [] W.env.cfg.sectionNames (Obj.fresh W.env []) with
  | mk y o1 =>
    rw [show assertLoop W.env W.tool.fuel [] [] W.specs.sectionNames (Obj.fresh W.env []) = _ from hl] at hx
    cases y with
    | exc e =>
      obtain ⟨pre, t, post, h1, h2⟩ := hx
      obtain ⟨d, h3⟩ := hread pre t post h1
      rw [h2] at h3
      cases h3
    | diverge =>
      obtain ⟨pre, t, post, h1, h2⟩ := hx
      obtain ⟨d, h3⟩ := hread pre t post h1
      rw [h2] at h3
      cases h3
    | ok b =>
      obtain ⟨h1, h2, _⟩ := assertLoop_stores hn [] [] _ (fun t ht => by cases ht) hl
      cases b with
      | true => exact h1 s (h2 s hs)
      | false => exact h1 s (h2 s hs)

/-- What a successful `apply_env` has done. -/
theorem apply_ok (hn : NoHookOptions W.env) {b : Str} {f : Bool} {a a1 : App} (ha : Sound (W := W) b f a)
    (h : App.applyEnv W a = (.ok (), a1))
    (hclean : ∀ q l, EnvironmentIs W.tool b f q → EnvActions W q l → ∀ x ∈ l, Clean x) :
    ∃ q l ms ls, parsedRes W.tool b f = .ok q ∧ EnvActions W q l ∧ Program W.sys l ms ∧
      Goes ms a.environ (.ok ()) a1.environ ∧ CommandLines py!"bash" l ls ∧ a1.setEnvironment.isSome = true ∧
      Dict.get? (a1.obj W).self q = some l ∧ a1.files = a.files := by
  obtain ⟨k1, k2, _, _⟩ := loadOnce_keeps (W := W) a
  have hs0 := stays_loadOnce hn _ _ a ha
  cases hl : App.loadOnce W a with
  | mk o a0 =>
    rw [hl] at k1 k2 hs0
    dsimp only at k1 k2 hs0
    by_cases ho : o = .ok ()
    · subst ho
      by_cases hq : ∃ q, parsedRes W.tool b f = .ok q
      · obtain ⟨q, hq⟩ := hq
        obtain ⟨e1, e2, e3, e4⟩ := apply_named hs0 hl hq
        rw [h] at e1 e2 e3 e4
        dsimp only at e1 e2 e3 e4
        rcases apply_cases hn (S := a0.state W) hs0.lists q with ⟨l, ms, h1, h2, h3, h4⟩ | ⟨h1, h2⟩
        · obtain ⟨h5, h6⟩ := h4 (hclean q l ((parsedRes_iff _ _ _).1 hq) h1)
          have hgoes : Goes ms a.environ (.ok ()) a1.environ := by
            rw [e1, e3, h5, h6, ← k1]
            exact goes_of_runAll ms _
          have hcl : ∃ ls, CommandLines py!"bash" l ls := by
            rcases program_lines (.inl rfl) h2 with hls | ⟨l₁, x, l₂, ls, rfl, hls, hinc⟩
            · exact hls
            · exfalso
              rw [h5] at e1
              cases hr : runAll W.env ms 0 (a0.state W).environ with
              | mk o p =>
                rw [hr] at e1
                cases o with
                | ok i => exact runAll_incomplete W.env h2 hinc (env' := p.1) (notes := p.2) hr
                | exc e => cases e1
                | diverge => cases e1
          obtain ⟨ls, hls⟩ := hcl
          refine ⟨q, l, ms, ls, hq, h1, h2, hgoes, hls, by rw [e2]; rfl, ?_, e4.trans k2⟩
          unfold App.obj
          rw [e2]
          exact h3
        · exfalso
          cases hx : (SetEnv.apply W.sys W.env W.tool.fuel q (a0.state W)).1 with
          | ok i => exact h1 i hx
          | exc e => rw [hx] at e1; cases e1
          | diverge => rw [hx] at e1; cases e1
      · have := (apply_unnamed hs0 hl fun q h => hq ⟨q, h⟩).1
        rw [h] at this
        exact absurd rfl (this ())
    · rw [apply_none hl ho] at h
      cases h
      exact absurd rfl ho

/-- Writing the script of a section that has its list. -/
theorem write_stored (hn : NoHookOptions W.env) {b : Str} {f : Bool} {a : App} (ha : Sound (W := W) b f a) {q : Str}
    (hq : parsedRes W.tool b f = .ok q) (hsome : a.setEnvironment.isSome = true) {l : List Action} {ls : List Str}
    (hl : Dict.get? (a.obj W).self q = some l) (hls : CommandLines py!"bash" l ls) (tmp : Str) (output : Option Str) :
    ∃ ls a1, CommandLines py!"bash" l ls ∧ App.write W tmp output a = (.ok (output.getD tmp), a1) ∧
      a1.environ = a.environ ∧ Wrote a.files a1.files tmp output (matchingScript W ls q) := by
  have hE := (ha.lists q l hl).1
  obtain ⟨w1, w2⟩ := write_cases hn ha (loadOnce_again hsome) tmp output
  rcases w2 with ⟨q', l', ls', w2, w3, w4, w5, w6⟩ | ⟨_, w3, _⟩
  · rw [hq] at w2
    cases w2
    have e5 := envActions_unique w3 hE
    subst e5
    exact ⟨ls', _, w4, Prod.ext w5 rfl, w1, w6⟩
  · have := w3 q l ls hq hE hls
    rw [hl] at this
    cases this

end
end CPE.KW
