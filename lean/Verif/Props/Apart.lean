import Verif.Spec.Apart
import Verif.Props.EnvVars
import Verif.Props.Apply
/-
C86: actions on different variables may change places.
-/
namespace CPE.Props
open CPE CPE.Spec CPE.SetEnv CPE.SetEnv.Spec

/-- A value in which the name of a variable does not occur is expanded without looking at the variable. -/
theorem expands_apart {env env' : Environ} {n s r : Str} (hs : ¬ n <:+: s) (he : ∀ m, m ≠ n → Dict.get? env m = Dict.get? env' m)
    (h : Expands env s r) : Expands env' s r := by
  induction h with
  | nil => exact .nil
  | @plain c s r hc _ ih => exact .plain hc (ih fun h => hs (h.trans (List.suffix_cons c s).isInfix))
  | @braced name s r hn _ ih =>
    have hne : name ≠ n := by rintro rfl; exact hs ⟨py!"${", py!"}" ++ s, by simp⟩
    rw [he name hne]
    exact .braced hn (ih fun h => hs (h.trans (List.suffix_append _ _).isInfix))
  | @bare name s r h1 h2 h3 _ ih =>
    have hne : name ≠ n := by rintro rfl; exact hs ⟨py!"$", s, by simp⟩
    rw [he name hne]
    exact .bare h1 h2 h3 (ih fun h => hs (h.trans (List.suffix_append _ _).isInfix))
  | @lone s r hr _ ih => exact .lone hr (ih fun h => hs (h.trans (List.suffix_cons _ s).isInfix))

theorem expandvars_apart {env env' : Environ} {n s : Str} (hs : ¬ n <:+: s) (he : ∀ m, m ≠ n → Dict.get? env m = Dict.get? env' m) :
    expandvars env' s = expandvars env s :=
  ((expands_iff env' s _).1 (expands_apart hs he ((expands_iff env s _).2 rfl))).symm

theorem expandvars_ext {env env' : Environ} (h : SameVars env env') (s : Str) : expandvars env' s = expandvars env s := by
  have key : ∀ r, Expands env s r → Expands env' s r := by
    intro r hr
    induction hr with
    | nil => exact .nil
    | plain hc _ ih => exact .plain hc ih
    | @braced name s r hn _ ih => rw [h name]; exact .braced hn ih
    | @bare name s r h1 h2 h3 _ ih => rw [h name]; exact .bare h1 h2 h3 ih
    | lone hr _ ih => exact .lone hr ih
  exact ((expands_iff env' s _).1 (key _ ((expands_iff env s _).2 rfl))).symm

theorem demand_found {f f' : Option Str} {op x : Str} {old : Option Str} {ch : Change} (h : Demand f op old x ch)
    (hf : op = py!"find_in_path" → f = f') : Demand f' op old x ch := by
  by_cases ho : op = py!"find_in_path"
  · rw [← hf ho]; exact h
  · cases h with
    | set => exact .set
    | setIfUnset => exact .setIfUnset
    | setIfEmpty => exact .setIfEmpty
    | setIfNot h => exact .setIfNot h
    | appendNew => exact .appendNew
    | append => exact .append
    | prependNew => exact .prependNew
    | prepend => exact .prepend
    | unset => exact .unset
    | unsetNone => exact .unsetNone
    | substrNone => exact .substrNone
    | substrEmpty => exact .substrEmpty
    | substr h1 h2 => exact .substr h1 h2
    | entryNone => exact .entryNone
    | entry h1 h2 => exact .entry h1 h2
    | find => exact absurd rfl ho
    | findNot => exact absurd rfl ho
    | assert h => exact .assert h
    | assertUnset => exact .assertUnset
    | assertEmpty => exact .assertEmpty
    | unknown h => exact .unknown h

theorem outcome_pair {env env' : Environ} {name : Str} {ch : Change} {r r' : Out Int × Environ} (h : Outcome env name ch r)
    (h' : Outcome env' name ch r') (hn : Dict.get? env name = Dict.get? env' name) :
    r.1 = r'.1 ∧ Dict.get? r.2 name = Dict.get? r'.2 name := by
  cases ch with
  | keep => cases h; cases h'; exact ⟨rfl, hn⟩
  | refuse => cases h; cases h'; exact ⟨rfl, hn⟩
  | unset =>
    obtain ⟨e, rfl, h1, _⟩ := h
    obtain ⟨e', rfl, h2, _⟩ := h'
    exact ⟨rfl, h1.trans h2.symm⟩
  | write y =>
    obtain ⟨a1, a2, a3⟩ := h
    obtain ⟨b1, b2, b3⟩ := h'
    by_cases hb : '=' ∈ name ∨ Char.ofNat 0 ∈ name ∨ Char.ofNat 0 ∈ y
    · rw [a2 hb, b2 hb]; exact ⟨rfl, hn⟩
    · have hb' := not_or.1 hb
      have hb'' := not_or.1 hb'.2
      by_cases h0 : name = []
      · rw [a3 ⟨h0, hb''.2⟩, b3 ⟨h0, hb''.2⟩]; exact ⟨rfl, hn⟩
      · obtain ⟨e, rfl, h1, _⟩ := a1 ⟨⟨h0, hb'.1, hb''.1⟩, hb''.2⟩
        obtain ⟨e', rfl, h2, _⟩ := b1 ⟨⟨h0, hb'.1, hb''.1⟩, hb''.2⟩
        exact ⟨rfl, h1.trans h2.symm⟩

/-- What an operation looks at: the variable, the value with its references expanded, and for `find_in_path` the search. -/
theorem op_local (sys : Sys) {op name value : Str} {env env' : Environ} (hn : Dict.get? env name = Dict.get? env' name)
    (hx : expandvars env' value = expandvars env value)
    (hf : op = py!"find_in_path" → ∀ x, sys.which env x = sys.which env' x) :
    (envvarOp sys op name value true env).1 = (envvarOp sys op name value true env').1 ∧
    Dict.get? (envvarOp sys op name value true env).2 name = Dict.get? (envvarOp sys op name value true env').2 name := by
  obtain ⟨ch, hd, _⟩ := C45_demand (sys.which env (expandvars env value)) op (Dict.get? env name) (expandvars env value)
  have h1 := C45_exact sys ((expands_iff env value _).2 rfl) hd
  have hd' : Demand (sys.which env' (expandvars env value)) op (Dict.get? env' name) (expandvars env value) ch := by
    rw [← hn]; exact demand_found hd fun h => hf h _
  have h2 := C45_exact sys ((expands_iff env' value _).2 hx.symm) hd'
  exact outcome_pair h1 h2 hn

/-- A step that looks at the variables only. -/
def LooksAtVars (m : M Environ Int) : Prop :=
  ∀ env env', SameVars env env' → (m env).1 = (m env').1 ∧ SameVars (m env).2 (m env').2

theorem op_vars {sys : Sys} (hl : Lawful sys) (op name value : Str) : LooksAtVars (envvarOp sys op name value true) := by
  intro env env' h
  obtain ⟨h1, h2⟩ := op_local sys (op := op) (name := name) (value := value) (h name) (expandvars_ext h value)
    fun _ x => hl.which env env' x (h _)
  refine ⟨h1, fun m => ?_⟩
  by_cases hm : m = name
  · subst hm; exact h2
  · rw [(C45_others sys op name value true env).1 m hm, (C45_others sys op name value true env').1 m hm, h m]

theorem does_vars {sys : Sys} (hl : Lawful sys) {a : Action} {m : M Environ Int} (h : Does sys a m) : LooksAtVars m := by
  cases h with
  | unset => exact op_vars hl _ _ _
  | envvar => exact op_vars hl _ _ _
  | module => exact fun env env' h => hl.module _ env env' h
  | incomplete => exact fun env env' h => ⟨rfl, h⟩

theorem runAll_vars (E : Env Shared Actions) (ms : List (M Environ Int)) (hm : ∀ m ∈ ms, LooksAtVars m) :
    ∀ acc env env', SameVars env env' → (runAll E ms acc env).1 = (runAll E ms acc env').1 ∧
      SameVars (runAll E ms acc env).2.1 (runAll E ms acc env').2.1 ∧ (runAll E ms acc env).2.2 = (runAll E ms acc env').2.2 := by
  induction ms with
  | nil => exact fun acc env env' h => ⟨rfl, h, rfl⟩
  | cons m ms ih =>
    intro acc env env' h
    obtain ⟨h1, h2⟩ := hm m (.head _) env env' h
    unfold runAll
    generalize m env = x at h1 h2
    generalize m env' = y at h1 h2
    obtain ⟨x1, x2⟩ := x
    obtain ⟨y1, y2⟩ := y
    cases h1
    cases x1 with
    | exc e => exact ⟨rfl, h2, rfl⟩
    | diverge => exact ⟨rfl, h2, rfl⟩
    | ok r =>
      dsimp only
      obtain ⟨g1, g2, g3⟩ := ih (fun m hx => hm m (.tail _ hx)) (max acc r) _ _ h2
      split
      · exact ⟨g1, g2, g3⟩
      · split
        · exact ⟨rfl, h2, rfl⟩
        · exact ⟨g1, g2, by dsimp only; rw [g3]⟩

/-- C86: two operations on different variables, the name of neither occurring in the value given to the other (nor PATH, if one is a
search), give the same variables in both orders, and one order succeeds if and only if the other does. -/
theorem C86_operations {sys : Sys} (hl : Lawful sys) {op1 n1 v1 op2 n2 v2 : Str} (hn : n1 ≠ n2)
    (h1 : v1 = [] ∨ ¬ n2 <:+: v1) (h2 : v2 = [] ∨ ¬ n1 <:+: v2) (f1 : op1 = py!"find_in_path" → n2 ≠ py!"PATH")
    (f2 : op2 = py!"find_in_path" → n1 ≠ py!"PATH") (env : Environ) :
    let a := envvarOp sys op1 n1 v1 true
    let b := envvarOp sys op2 n2 v2 true
    (b (a env).2).1 = (b env).1 ∧ (a (b env).2).1 = (a env).1 ∧ SameVars (b (a env).2).2 (a (b env).2).2 := by
  intro a b
  have oa : ∀ e m, m ≠ n1 → Dict.get? (a e).2 m = Dict.get? e m := fun e => (C45_others sys op1 n1 v1 true e).1
  have ob : ∀ e m, m ≠ n2 → Dict.get? (b e).2 m = Dict.get? e m := fun e => (C45_others sys op2 n2 v2 true e).1
  have ex : ∀ {v n : Str} {e e' : Environ}, (v = [] ∨ ¬ n <:+: v) → (∀ m, m ≠ n → Dict.get? e m = Dict.get? e' m) →
      expandvars e' v = expandvars e v := by
    intro v n e e' h he
    rcases h with rfl | h
    · rfl
    · exact expandvars_apart h he
  have la := op_local sys (op := op1) (name := n1) (value := v1) (env := (b env).2) (env' := env) (ob env n1 hn)
    (ex h1 (ob env)) (fun h x => hl.which _ _ x (ob env _ (f1 h).symm))
  have lb := op_local sys (op := op2) (name := n2) (value := v2) (env := (a env).2) (env' := env) (oa env n2 hn.symm)
    (ex h2 (oa env)) (fun h x => hl.which _ _ x (oa env _ (f2 h).symm))
  refine ⟨lb.1, la.1, fun m => ?_⟩
  by_cases m1 : m = n1
  · subst m1
    rw [ob _ _ hn]; exact la.2.symm
  · by_cases m2 : m = n2
    · subst m2
      rw [oa _ _ m1]; exact lb.2
    · rw [ob _ _ m2, oa _ _ m1, oa _ _ m1, ob _ _ m2]

theorem runAll_swap (E : Env Shared Actions) {sys : Sys} (hl : Lawful sys) {a b : Action} {ma mb : M Environ Int} (hab : Apart a b)
    (ha : Does sys a ma) (hb : Does sys b mb) (ms : List (M Environ Int)) (hm : ∀ m ∈ ms, LooksAtVars m) (acc : Int) (env : Environ)
    {i : Int} (h : (runAll E (ma :: mb :: ms) acc env).1 = .ok i) :
    (runAll E (mb :: ma :: ms) acc env).1 = .ok i ∧
      SameVars (runAll E (ma :: mb :: ms) acc env).2.1 (runAll E (mb :: ma :: ms) acc env).2.1 ∧
      (runAll E (ma :: mb :: ms) acc env).2.2 = (runAll E (mb :: ma :: ms) acc env).2.2 := by
  -- an action on a variable is an operation, or raises
  have op : ∀ {op n v m}, Does sys (.envvar op n v) m → (∀ e, (m e).1 = .exc .typeError) ∨
      ∃ o x, m = envvarOp sys o n x true ∧ (x = [] ∨ x ∈ v) ∧ (o = py!"find_in_path" → op = py!"envvar_find_in_path") := by
    intro op n v m hd
    generalize he : Action.envvar op n v = act at hd
    cases hd with
    | unset hw =>
      subst he
      cases hw with
      | unset => exact .inr ⟨_, _, rfl, .inl rfl, fun h => by revert h; decide⟩
    | envvar hw =>
      subst he
      cases hw with
      | two _ _ => exact .inr ⟨_, _, rfl, .inr rfl, fun h => by rw [h]; rfl⟩
    | module hw => subst he; cases hw
    | incomplete => exact .inl fun _ => rfl
  have bad : ∀ (m m' : M Environ Int) acc env, (∀ e, (m e).1 = .exc .typeError) → (runAll E (m :: m' :: ms) acc env).1 ≠ .ok i := by
    intro m m' acc env hx h
    unfold runAll at h
    have := hx env
    generalize m env = x at this h
    obtain ⟨x1, x2⟩ := x
    cases this
    cases h
  have st : ∀ o n x e, (envvarOp sys o n x true e).1 = .ok 0 ∨ ∃ y, (envvarOp sys o n x true e).1 = .exc y := by
    intro o n x e
    rcases (C45_others sys o n x true e).2 with h | h | h
    · exact .inl h
    · exact .inr ⟨_, h⟩
    · exact .inr ⟨_, h⟩
  -- a step with status 0
  have go : ∀ (m : M Environ Int) ms acc env, (m env).1 = .ok 0 → runAll E (m :: ms) acc env = runAll E ms (max acc 0) (m env).2 := by
    intro m ms acc env h
    rw [runAll]
    generalize m env = x at h
    obtain ⟨x1, x2⟩ := x
    cases h
    rfl
  have stop : ∀ (m : M Environ Int) ms acc env y, (m env).1 = .exc y → (runAll E (m :: ms) acc env).1 = .exc y := by
    intro m ms acc env y h
    rw [runAll]
    generalize m env = x at h
    obtain ⟨x1, x2⟩ := x
    cases h
    rfl
  obtain ⟨hn, h1, h2, f1, f2⟩ := hab
  rename_i op1 n1 v1 op2 n2 v2
  rcases op ha with ha | ⟨o1, x1, rfl, g1, k1⟩
  · exact absurd h (bad _ _ _ _ ha)
  · rcases op hb with hb | ⟨o2, x2, rfl, g2, k2⟩
    · rcases st o1 n1 x1 env with s | ⟨y, s⟩
      · rw [go _ _ _ _ s, stop _ _ _ _ _ (hb _)] at h; cases h
      · rw [stop _ _ _ _ _ s] at h; cases h
    · obtain ⟨e1, e2, e3⟩ := C86_operations hl (op1 := o1) (op2 := o2) (v1 := x1) (v2 := x2) hn (g1.imp id (h1 x1))
        (g2.imp id (h2 x2)) (fun h => f1 (k1 h)) (fun h => f2 (k2 h)) env
      rcases st o1 n1 x1 env with s | ⟨y, s⟩
      · rcases st o2 n2 x2 env with t | ⟨y, t⟩
        · rw [go _ _ _ _ s, go _ _ _ _ (e1.trans t)] at h ⊢
          rw [go _ _ _ _ t, go _ _ _ _ (e2.trans s)]
          obtain ⟨q1, q2, q3⟩ := runAll_vars E ms hm (max (max acc 0) 0) _ _ e3
          exact ⟨q1.symm.trans h, q2, q3⟩
        · rw [go _ _ _ _ s, stop _ _ _ _ _ (e1.trans t)] at h; cases h
      · rw [stop _ _ _ _ _ s] at h; cases h

theorem program_split {sys : Sys} {pre rest : List Action} {ms : List (M Environ Int)} (h : Program sys (pre ++ rest) ms) :
    ∃ m1 m2, ms = m1 ++ m2 ∧ Program sys pre m1 ∧ Program sys rest m2 := by
  induction pre generalizing ms with
  | nil => exact ⟨[], ms, rfl, .nil, h⟩
  | cons a pre ih =>
    cases h with
    | cons hd hp =>
      obtain ⟨m1, m2, rfl, h1, h2⟩ := ih hp
      exact ⟨_ :: m1, m2, rfl, .cons hd h1, h2⟩

theorem program_join {sys : Sys} {pre rest : List Action} {m1 m2 : List (M Environ Int)} (h1 : Program sys pre m1)
    (h2 : Program sys rest m2) : Program sys (pre ++ rest) (m1 ++ m2) := by
  induction h1 with
  | nil => exact h2
  | cons hd _ ih => exact .cons hd ih

theorem program_vars {sys : Sys} (hl : Lawful sys) {l : List Action} {ms : List (M Environ Int)} (h : Program sys l ms) :
    ∀ m ∈ ms, LooksAtVars m := by
  induction h with
  | nil => exact fun _ h => by cases h
  | cons hd _ ih =>
    intro m hm
    rcases List.mem_cons.1 hm with rfl | hm
    · exact does_vars hl hd
    · exact ih m hm

theorem runAll_swap_in (E : Env Shared Actions) {sys : Sys} (hl : Lawful sys) {a b : Action} {ma mb : M Environ Int} (hab : Apart a b)
    (ha : Does sys a ma) (hb : Does sys b mb) (ms : List (M Environ Int)) (hm : ∀ m ∈ ms, LooksAtVars m) (pre : List (M Environ Int)) :
    ∀ (acc : Int) (env : Environ) {i : Int}, (runAll E (pre ++ ma :: mb :: ms) acc env).1 = .ok i →
      (runAll E (pre ++ mb :: ma :: ms) acc env).1 = .ok i ∧
        SameVars (runAll E (pre ++ ma :: mb :: ms) acc env).2.1 (runAll E (pre ++ mb :: ma :: ms) acc env).2.1 ∧
        (runAll E (pre ++ ma :: mb :: ms) acc env).2.2 = (runAll E (pre ++ mb :: ma :: ms) acc env).2.2 := by
  induction pre with
  | nil => exact fun acc env i h => runAll_swap E hl hab ha hb ms hm acc env h
  | cons m pre ih =>
    intro acc env i h
    simp only [List.cons_append] at h ⊢
    unfold runAll at h ⊢
    generalize m env = x at h
    obtain ⟨x1, x2⟩ := x
    cases x1 with
    | exc e => cases h
    | diverge => cases h
    | ok r =>
      dsimp only at h ⊢
      split
      · rename_i hr
        rw [if_pos hr] at h
        exact ih _ _ h
      · rename_i hr
        rw [if_neg hr] at h
        split
        · rename_i hlv; rw [if_pos hlv] at h; cases h
        · rename_i hlv
          rw [if_neg hlv] at h
          obtain ⟨g1, g2, g3⟩ := ih _ _ h
          exact ⟨g1, g2, by dsimp only; rw [g3]⟩

/-- C86: if two neighbouring actions in the list of a section are apart, a successful `apply` of the list with the two in the other
order succeeds too, with the same status and the same notices, and leaves the same variables; whatever the other actions are. -/
theorem C86_apply {sys : Sys} (hl : Lawful sys) (E : Env Shared Actions) {n : Nat} {s s' : Str} {S S' : State}
    {x x' : Out (Dict Str (Option Str))} {o o' : Obj Shared Actions}
    (hg : edGetItem E n s S.obj = (x, o)) (hx : (∃ v, x = .ok v) ∨ x = .exc .keyError)
    (hg' : edGetItem E n s' S'.obj = (x', o')) (hx' : (∃ v, x' = .ok v) ∨ x' = .exc .keyError)
    (henv : S'.environ = S.environ) {pre post : List Action} {a b : Action} (hab : Apart a b)
    (hlist : Dict.get? o.self s = some (pre ++ a :: b :: post)) (hlist' : Dict.get? o'.self s' = some (pre ++ b :: a :: post))
    {ms : List (M Environ Int)} (hp : Program sys (pre ++ a :: b :: post) ms) (hc : ∀ c ∈ pre ++ a :: b :: post, Clean c) {i : Int}
    {T : State} (h : SetEnv.apply sys E n s S = (.ok i, T)) :
    ∃ T' notes, SetEnv.apply sys E n s' S' = (.ok i, T') ∧ SameVars T.environ T'.environ ∧
      T.obj.out = o.out ++ notes ∧ T'.obj.out = o'.out ++ notes := by
  have h1 := C48_apply sys E S hg hx hlist hp hc
  obtain ⟨m1, m2, rfl, p1, p2⟩ := program_split hp
  cases p2 with
  | cons ha p2 =>
    cases p2 with
    | cons hb p3 =>
      rename_i ma mb ms
      have hp' : Program sys (pre ++ b :: a :: post) (m1 ++ mb :: ma :: ms) := program_join p1 (.cons hb (.cons ha p3))
      have hc' : ∀ c ∈ pre ++ b :: a :: post, Clean c := fun c hm => hc c (by
        simp only [List.mem_append, List.mem_cons] at hm ⊢
        rcases hm with h | h | h | h
        · exact .inl h
        · exact .inr (.inr (.inl h))
        · exact .inr (.inl h)
        · exact .inr (.inr (.inr h)))
      have h2 := C48_apply sys E S' hg' hx' hlist' hp' hc'
      rw [h] at h1
      obtain ⟨q1, q2, q3⟩ := runAll_swap_in E hl hab ha hb ms (program_vars hl p3) m1 0 S.environ (congrArg Prod.fst h1).symm
      rw [henv] at h2
      have hT : T = _ := congrArg Prod.snd h1
      refine ⟨_, (runAll E (m1 ++ mb :: ma :: ms) 0 S.environ).2.2, h2.trans (Prod.ext q1 rfl), ?_, ?_, ?_⟩
      · rw [hT]; exact q2
      · rw [hT]; dsimp only; rw [q3]
      · rfl

/-! ### A concrete case -/

/-- The `module` command of the examples and its search look at the variables only. -/
theorem example_lawful : Lawful exampleSys where
  which _ _ _ _ := rfl
  module ws env env' h := ⟨rfl, fun m => by
    show Dict.get? (Dict.set env _ _) m = Dict.get? (Dict.set env' _ _) m
    rw [Dict.get?_set, Dict.get?_set, h m]⟩

def apartA : Action := .envvar py!"envvar_set" py!"WHO" (some py!"me")
def apartB : Action := .envvar py!"envvar_append" py!"LIB" (some py!"${HOME}/bin")
def apartRest : Action := .module py!"module_load" (some py!"gcc") (some py!"4.8")

/-- Two sections with the same actions in another order. -/
def apartCfg : Cfg where
  sections := [(py!"P", [(py!"envvar-set WHO", some py!"me"), (py!"envvar-append LIB", some py!"${HOME}/bin"), (py!"module-load gcc", some py!"4.8")]),
    (py!"Q", [(py!"envvar-append LIB", some py!"${HOME}/bin"), (py!"envvar-set WHO", some py!"me"), (py!"module-load gcc", some py!"4.8")])]

theorem apart_ab : Apart apartA apartB := by
  refine .mk (by decide +kernel) (fun w h => ?_) (fun w h => ?_) (fun h => absurd h (by decide +kernel)) (fun h => absurd h (by decide +kernel))
  · cases h; decide +kernel
  · cases h; decide +kernel

theorem pair_eq {α β : Type} {p : α × β} {a : α} (h : p.1 = a) : p = (a, p.2) := by cases p; cases h; rfl

/-- `apply` of P and of Q on a new object give the same variables, set in another order. -/
example :
    let E := env apartCfg exampleSettings
    let S := State.fresh E exampleEnviron []
    ∃ T T', SetEnv.apply exampleSys E 9 py!"P" S = (.ok 0, T) ∧ SetEnv.apply exampleSys E 9 py!"Q" S = (.ok 0, T') ∧
      SameVars T.environ T'.environ ∧ T.environ ≠ T'.environ := by
  intro E S
  have hP : SetEnv.apply exampleSys E 9 py!"P" S = (.ok 0, (SetEnv.apply exampleSys E 9 py!"P" S).2) :=
    pair_eq (by decide +kernel)
  have gP : edGetItem E 9 py!"P" S.obj = (.ok [], (edGetItem E 9 py!"P" S.obj).2) := pair_eq (by decide +kernel)
  have gQ : edGetItem E 9 py!"Q" S.obj = (.ok [], (edGetItem E 9 py!"Q" S.obj).2) := pair_eq (by decide +kernel)
  have lP : Dict.get? (edGetItem E 9 py!"P" S.obj).2.self py!"P" = some ([] ++ apartA :: apartB :: [apartRest]) := by decide +kernel
  have lQ : Dict.get? (edGetItem E 9 py!"Q" S.obj).2.self py!"Q" = some ([] ++ apartB :: apartA :: [apartRest]) := by decide +kernel
  have hp : Program exampleSys ([] ++ apartA :: apartB :: [apartRest]) _ :=
    .cons (.envvar (.two (op := py!"set") (by decide) (by decide))) (.cons (.envvar (.two (op := py!"append") (by decide) (by decide)))
      (.cons (.module (.loadVersion (n := py!"gcc") (v := py!"4.8") (by decide))) .nil))
  have hc : ∀ a ∈ [] ++ apartA :: apartB :: [apartRest], Clean a := by
    intro a ha
    simp only [List.nil_append, List.mem_cons, List.not_mem_nil, or_false, apartA, apartB, apartRest] at ha
    rcases ha with rfl | rfl | rfl <;> simp [Clean, Readable] <;> decide
  obtain ⟨T', _, h1, h2, _, _⟩ := C86_apply example_lawful E gP (.inl ⟨_, rfl⟩) gQ (.inl ⟨_, rfl⟩) rfl apart_ab lP lQ hp hc hP
  refine ⟨_, T', hP, h1, h2, ?_⟩
  have : T' = (SetEnv.apply exampleSys E 9 py!"Q" S).2 := (congrArg Prod.snd h1).symm
  rw [this]
  decide +kernel

/-- The order matters if the value of one refers to the variable of the other. -/
example : (do let _ ← envvarOp exampleSys py!"set" py!"A" py!"1" true; envvarOp exampleSys py!"set" py!"B" py!"$A" true : M Environ Int) [] =
      (.ok 0, [(py!"A", py!"1"), (py!"B", py!"1")]) ∧
    (do let _ ← envvarOp exampleSys py!"set" py!"B" py!"$A" true; envvarOp exampleSys py!"set" py!"A" py!"1" true : M Environ Int) [] =
      (.ok 0, [(py!"B", py!"$A"), (py!"A", py!"1")]) := ⟨by rfl, by rfl⟩

end CPE.Props
