import Verif.Proofs.SetEnvironment
import Verif.Props.EnvVars
/-
C47: the action list of a section (wip/setenvironment).
-/
namespace CPE.Props
open CPE.Spec CPE.SetEnv CPE.SetEnv.Spec

variable {cfg : Cfg} {st : Settings} {n : Nat} {s : Str} {o o' : Obj Shared Actions} {r : Shared}

/-- C47: the options a handler takes and the action list they make are determined by the file. -/
theorem C47_list_unique {init : Bool} {cs cs' : List HCall} {l l' : List Action}
    (h : HandledOptions (env cfg st) init s cs) (hl : ActionList cs l)
    (h' : HandledOptions (env cfg st) init s cs') (hl' : ActionList cs' l') : cs = cs' ∧ l = l' := by
  obtain ⟨evD, evR, h1, h2, rfl⟩ := h
  obtain ⟨evD', evR', h1', h2', rfl⟩ := h'
  have e2 := unrolls_det h2 h2'
  have e1 : evD = evD' := by
    split at h1
    · rename_i hc; rw [if_pos hc] at h1'; exact unrolls_det h1 h1'
    · rename_i hc; rw [if_neg hc] at h1'; rw [h1, h1']
  subst e1 e2
  exact ⟨rfl, actionList_det hl hl'⟩

/-- C47: a parse of a section that succeeds stores as the section's list of actions: one action per option that asks
for one, in unrolled order, without those that a later `envvar-remove` or `module-remove` takes out. The parse returns
that list; the lists of all other sections stay as they were. -/
theorem C47_actions {init : Bool} (hn : NoHookOptions (env cfg st))
    (h : parseSection (env cfg st) n s init true o = (.ok r, o')) :
    ∃ cs l, HandledOptions (env cfg st) init s cs ∧ ActionList cs l ∧ r = some l ∧
      Dict.get? o'.self s = some l ∧ ∀ t, t ≠ s → Dict.get? o'.self t = Dict.get? o.self t := by
  obtain ⟨hs, hr, hlast, hrep⟩ := parseSection_ok h
  obtain ⟨evs, ht⟩ := parseTrace_total (env cfg st) s init true
  have hrep := hrep evs ht
  obtain ⟨evD, evR, h1, h2, h3, rfl⟩ := parseTrace_inv ht
  have hD : if init = true ∧ (env cfg st).cfg.hasSection (env cfg st).defaultName = true then
      Unrolls (env cfg st) s (.sec [] (env cfg st).defaultName) evD else evD = [] := by
    split
    · rename_i hc; exact h1 hc
    · rename_i hc; exact h2 hc
  have hp : ∀ x ∈ calls evD ++ calls evR, Proper x := by
    intro x hx
    rcases List.mem_append.1 hx with hx | hx
    · by_cases hc : init = true ∧ (env cfg st).cfg.hasSection (env cfg st).defaultName = true
      · exact calls_proper hn (h1 hc) x hx
      · rw [h2 hc] at hx; cases hx
    · exact calls_proper hn h3 x hx
  obtain ⟨L, hL, hf⟩ := foldCalls_proper _ hp
  refine ⟨_, L, ⟨evD, evR, hD, h3, rfl⟩, hL, ?_⟩
  rw [if_pos rfl] at hrep
  obtain ⟨c1, hr1, hr2⟩ := replay_none_prefix hrep
  have hst := replay_state _ _ _ _ _ hr1
  have hshared : c1.shared = some L ∨ L = [] ∧ c1.shared = none := by
    cases init with
    | true =>
      rw [if_pos rfl] at hst
      have : (c1.shared, c1.self) = foldCalls (calls evD ++ calls evR) (some [], o.self) := by
        rw [hst, calls_append, calls_append]
        rfl
      rw [hf] at this
      exact .inl (congrArg Prod.fst this)
    | false =>
      rw [if_neg (by simp)] at hst
      have : (c1.shared, c1.self) = foldCalls (calls evD ++ calls evR) (none, o.self) := by
        rw [hst, List.nil_append, calls_append]
        rfl
      have hx := (foldCalls_proper_any _ hp hL hf o.self).1
      rw [← this] at hx
      exact hx
  have hself : c1.self = o.self := by
    cases init with
    | true =>
      have e := hst
      rw [if_pos rfl] at e
      have : (c1.shared, c1.self) = foldCalls (calls evD ++ calls evR) (some [], o.self) := by
        rw [e, calls_append, calls_append]
        rfl
      rw [hf] at this
      exact congrArg Prod.snd this
    | false =>
      have e := hst
      rw [if_neg (by simp)] at e
      have : (c1.shared, c1.self) = foldCalls (calls evD ++ calls evR) (none, o.self) := by
        rw [e, List.nil_append, calls_append]
        rfl
      have hx := (foldCalls_proper_any _ hp hL hf o.self).2
      rw [← this] at hx
      exact hx
  rcases hshared with hsh | ⟨_, hsh⟩
  · simp only [replay, evStep, SetEnv.env, hookFinal, hsh, onReturn] at hr2
    simp only [if_true, Prod.mk.injEq, true_and] at hr2
    have hc := hr2
    refine ⟨?_, ?_, fun t htne => ?_⟩
    · rw [hr, ← hc]
    · rw [← hc]; exact Dict.get?_set_self _ _ _
    · rw [← hc, ← hself]; exact Dict.get?_set_ne _ _ htne
  · simp only [replay, evStep, SetEnv.env, hookFinal, hsh] at hr2
    cases hr2

/-- C47: a parse that fails, and a parse without finalization, leave all stored lists as they were. -/
theorem C47_failed_parse (hn : NoHookOptions (env cfg st)) {init fin : Bool}
    (h : fin = false ∨ ∀ r, (parseSection (env cfg st) n s init fin o).1 ≠ .ok r) :
    (parseSection (env cfg st) n s init fin o).2.self = o.self := parseSection_self hn n s init fin o h

/-- C47 over histories: whatever a client did with an object before (parses and accesses of any section, applying
actions, generating scripts, with exceptions caught), every stored list is the action list of its section. The
options of DEFAULT are missing from it only if the client asked for a parse of that section without initialization. -/
theorem C47_history (sys : Sys) (hn : NoHookOptions (env cfg st)) (ops : List Op) (environ : Environ) (files : Dict Str Str)
    {t : Str} {l : List Action}
    (h : Dict.get? (Op.run sys (env cfg st) n ops (State.fresh (env cfg st) environ files)).obj.self t = some l) :
    ∃ init cs, HandledOptions (env cfg st) init t cs ∧ ActionList cs l ∧
      (init = true ∨ .ed (.parseSection t false true) ∈ ops) := by
  have hP : ObjInv (env cfg st) n (fun s i f => i = true ∨ f = false ∨ Op.ed (.parseSection s i f) ∈ ops)
      (fun o : Obj Shared Actions => ∀ t l, Dict.get? o.self t = some l →
        ∃ init cs, HandledOptions (env cfg st) init t cs ∧ ActionList cs l ∧
          (init = true ∨ .ed (.parseSection t false true) ∈ ops)) :=
    { full := fun _ => .inl rfl
      parse := by
        intro s i f o hA ho
        cases hx : parseSection (env cfg st) n s i f o with
        | mk x o' =>
          have hfail : (f = false ∨ ∀ r, x ≠ .ok r) → o'.self = o.self := by
            intro h
            have := parseSection_self hn n s i f o (by rw [hx]; exact h)
            rwa [hx] at this
          cases f with
          | false => intro t l hl; rw [hfail (.inl rfl)] at hl; exact ho t l hl
          | true =>
            cases x with
            | ok r =>
              obtain ⟨cs, L, h1, h2, _, h4, h5⟩ := C47_actions hn hx
              intro t l hl
              by_cases ht : t = s
              · subst ht
                rw [h4] at hl
                cases hl
                refine ⟨i, cs, h1, h2, ?_⟩
                cases i with
                | true => exact .inl rfl
                | false => rcases hA with h | h | h
                           · cases h
                           · cases h
                           · exact .inr h
              · rw [h5 t ht] at hl
                exact ho t l hl
            | exc e => intro t l hl; rw [hfail (.inr fun r h => by cases h)] at hl; exact ho t l hl
            | diverge => intro t l hl; rw [hfail (.inr fun r h => by cases h)] at hl; exact ho t l hl
      mark := fun _ _ h => h
      event := fun _ _ _ h => h
      write := fun _ _ _ h _ => h
      put := fun _ _ _ _ h => h }
  exact keepsLists_run (P := fun self => ∀ t l, Dict.get? self t = some l →
        ∃ init cs, HandledOptions (env cfg st) init t cs ∧ ActionList cs l ∧
          (init = true ∨ .ed (.parseSection t false true) ∈ ops)) hP ops (fun s i f h => .inr (.inr h)) _
    (fun t l hl => by cases hl) t l h

/--
```
[DEFAULT]
envvar-set WHO: me
[COMMON]
envvar-set A: 1
module-load gcc: 4.8
envvar-unset WHO
[MAIN]
use COMMON
envvar-append PATH: ${WHO}/bin
module-swap intel: intel/19
envvar-remove A
[BAD]
module-load
```
-/
def exampleCfg : Cfg where
  sections :=
    [(py!"DEFAULT", [(py!"envvar-set WHO", some py!"me")]),
     (py!"COMMON", [(py!"envvar-set A", some py!"1"), (py!"module-load gcc", some py!"4.8"), (py!"envvar-unset WHO", none)]),
     (py!"MAIN", [(py!"use COMMON", none), (py!"envvar-append PATH", some py!"${WHO}/bin"),
       (py!"module-swap intel", some py!"intel/19"), (py!"envvar-remove A", none)]),
     (py!"BAD", [(py!"module-load", none)])]

/-- The settings of the examples: warnings are not raised. -/
def exampleSettings : Settings := { level := 1 }

/-- The actions of MAIN: `envvar-set A` has been taken out. -/
def exampleActions : List Action :=
  [.envvar py!"envvar_set" py!"WHO" (some py!"me"), .module py!"module_load" (some py!"gcc") (some py!"4.8"),
   .envvar py!"envvar_unset" py!"WHO" none, .envvar py!"envvar_append" py!"PATH" (some py!"${WHO}/bin"),
   .module py!"module_swap" (some py!"intel") (some py!"intel/19")]

/-- The hypotheses of C47 are met: no option names a hook, and the parse of MAIN succeeds. -/
theorem example_noHooks : NoHookOptions (env exampleCfg exampleSettings) :=
  noHookOptions_of _ (by decide +kernel)

example : (parseSection (env exampleCfg exampleSettings) 9 py!"MAIN" true true
      (Obj.fresh (env exampleCfg exampleSettings) [])).1 = .ok (some exampleActions) ∧
    Dict.get? (parseSection (env exampleCfg exampleSettings) 9 py!"MAIN" true true
      (Obj.fresh (env exampleCfg exampleSettings) [])).2.self py!"MAIN" = some exampleActions := by
  decide +kernel

/-- C47_history: a history with another section, a script, and an apply before. -/
example : Dict.get? (Op.run exampleSys (env exampleCfg exampleSettings) 9
      [.ed (.options py!"COMMON"), .script py!"BAD" true true true py!"bash", .apply py!"MAIN", .ed .parseAll]
      (State.fresh (env exampleCfg exampleSettings) exampleEnviron [])).obj.self py!"MAIN" = some exampleActions := by
  decide +kernel

end CPE.Props
