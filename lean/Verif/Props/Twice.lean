import Verif.Spec.Twice
import Verif.Props.Apart
import Verif.Props.SetEnvPrint
/-
C89: a list that only sets and unsets variables can be applied twice.
-/
namespace CPE.Props
open CPE CPE.Spec CPE.SetEnv CPE.SetEnv.Spec

/-- The same values outside `names`. -/
def AgreeOff (names : List Str) (env env' : Environ) : Prop := ∀ k, k ∉ names → Dict.get? env k = Dict.get? env' k

theorem expandvars_off {env env' : Environ} {names : List Str} {s : Str} (hs : ∀ m ∈ names, ¬ m <:+: s) (he : AgreeOff names env env') :
    expandvars env' s = expandvars env s := by
  have key : ∀ s r, (∀ m ∈ names, ¬ m <:+: s) → Expands env s r → Expands env' s r := by
    intro s r hs h
    induction h with
    | nil => exact .nil
    | @plain c s r hc _ ih => exact .plain hc (ih fun m hm h => hs m hm (h.trans (List.suffix_cons c s).isInfix))
    | @braced name s r hn _ ih =>
      have hne : name ∉ names := fun hm => hs name hm ⟨py!"${", py!"}" ++ s, by simp⟩
      rw [he name hne]
      exact .braced hn (ih fun m hm h => hs m hm (h.trans (List.suffix_append _ _).isInfix))
    | @bare name s r h1 h2 h3 _ ih =>
      have hne : name ∉ names := fun hm => hs name hm ⟨py!"$", s, by simp⟩
      rw [he name hne]
      exact .bare h1 h2 h3 (ih fun m hm h => hs m hm ((h.trans (List.suffix_append _ _).isInfix).trans (List.suffix_cons _ _).isInfix))
    | @lone s r hr _ ih => exact .lone hr (ih fun m hm h => hs m hm (h.trans (List.suffix_cons _ s).isInfix))
  exact ((expands_iff env' s _).1 (key s _ hs ((expands_iff env s _).2 rfl))).symm

/-- What is needed of one action: it touches one variable and what it makes of it depends on the variables outside
`names`. -/
structure Fix (names : List Str) (m : M Environ Int) (name : Str) : Prop where
  inside : name ∈ names
  others : ∀ env k, k ≠ name → Dict.get? (m env).2 k = Dict.get? env k
  status : ∀ env r, (m env).1 = .ok r → r = 0
  same : ∀ env env', AgreeOff names env env' → ∀ r, (m env).1 = .ok r →
    (m env').1 = .ok r ∧ Dict.get? (m env).2 name = Dict.get? (m env').2 name

theorem fix_op (sys : Sys) {names : List Str} {op n v : Str} (hn : n ∈ names)
    (h : (op = py!"set" ∧ ∀ m ∈ names, ¬ m <:+: v) ∨ op = py!"unset") : Fix names (envvarOp sys op n v true) n := by
  refine ⟨hn, fun env => (C45_others sys op n v true env).1, fun env r hr => ?_, fun env env' he r hr => ?_⟩
  · rcases (C45_others sys op n v true env).2 with e | e | e <;> rw [e] at hr <;> cases hr
    rfl
  · rcases h with ⟨rfl, hv⟩ | rfl
    · have ex := expandvars_off hv he
      have h1 := C45_exact sys (op := py!"set") (name := n) ((expands_iff env v _).2 rfl) .set
      have h2 := C45_exact sys (op := py!"set") (name := n) ((expands_iff env' v _).2 ex.symm) .set
      generalize envvarOp sys py!"set" n v true env = x at h1 hr
      generalize envvarOp sys py!"set" n v true env' = y at h2
      obtain ⟨a1, a2, a3⟩ := h1
      obtain ⟨b1, _, _⟩ := h2
      by_cases hb : '=' ∈ n ∨ Char.ofNat 0 ∈ n ∨ Char.ofNat 0 ∈ expandvars env v
      · rw [a2 hb] at hr; cases hr
      · have hz : Char.ofNat 0 ∉ expandvars env v := fun h => hb (.inr (.inr h))
        by_cases h0 : n = []
        · rw [a3 ⟨h0, hz⟩] at hr; cases hr
        · have hvn : ValidName n := ⟨h0, fun h => hb (.inl h), fun h => hb (.inr (.inl h))⟩
          obtain ⟨e, rfl, c1, _⟩ := a1 ⟨hvn, hz⟩
          obtain ⟨e', rfl, c2, _⟩ := b1 ⟨hvn, hz⟩
          exact ⟨hr, c1.trans c2.symm⟩
    · have key : ∀ env, (envvarOp sys py!"unset" n v true env).1 = .ok 0 ∧
          Dict.get? (envvarOp sys py!"unset" n v true env).2 n = none := by
        intro env
        cases hg : Dict.get? env n with
        | none =>
          have h1 : Outcome env n .keep _ := C45_exact sys (op := py!"unset") (name := n) ((expands_iff env v _).2 rfl) (by rw [hg]; exact .unsetNone)
          rw [show envvarOp sys py!"unset" n v true env = _ from h1]
          exact ⟨rfl, hg⟩
        | some w =>
          have h1 : Outcome env n .unset _ := C45_exact sys (op := py!"unset") (name := n) ((expands_iff env v _).2 rfl) (by rw [hg]; exact .unset)
          obtain ⟨e, h2, h3, _⟩ := h1
          rw [h2]
          exact ⟨rfl, h3⟩
      rw [(key env).1] at hr
      cases hr
      exact ⟨(key env').1, (key env).2.trans (key env').2.symm⟩

theorem fixed_does {sys : Sys} {names : List Str} {a : Action} {m : M Environ Int} (hf : Fixed names a) (hd : Does sys a m) :
    ∃ name, Fix names m name := by
  cases hf with
  | @set n v hn hv =>
    generalize he : Action.envvar py!"envvar_set" n (some v) = act at hd
    cases hd with
    | unset hw => subst he; cases hw
    | envvar hw =>
      generalize hws : [_, _, _] = ws at hw
      cases hw with
      | unset => cases hws
      | @two op n' v' _ _ =>
        cases hws
        injection he with h1 h2 h3
        cases h2; cases h3
        exact ⟨_, fix_op sys hn (.inl ⟨(List.append_cancel_left (as := py!"envvar_") (bs := py!"set") h1).symm, hv⟩)⟩
    | module hw => subst he; cases hw
    | incomplete hw =>
      cases hw with
      | envvar => injection he with _ _ h3; cases h3
      | use => cases he
      | load => cases he
      | unload => cases he
      | swapName => cases he
      | swapValue => cases he
  | @unset n v hn =>
    generalize he : Action.envvar py!"envvar_unset" n v = act at hd
    cases hd with
    | unset hw => subst he; cases hw; exact ⟨_, fix_op sys hn (.inr rfl)⟩
    | envvar hw =>
      generalize hws : [_, _, _] = ws at hw
      cases hw with
      | unset => cases hws
      | @two op n' v' _ hne =>
        injection he with h1 h2 h3
        exact absurd (List.append_cancel_left (as := py!"envvar_") (bs := py!"unset") (cs := op) h1).symm hne
    | module hw => subst he; cases hw
    | incomplete hw =>
      cases hw with
      | @envvar op _ _ hne =>
        injection he with h1 h2 h3
        exact absurd (List.append_cancel_left (as := py!"envvar_") (bs := py!"unset") (cs := op) h1).symm hne
      | use => cases he
      | load => cases he
      | unload => cases he
      | swapName => cases he
      | swapValue => cases he

theorem fixed_program {sys : Sys} {names : List Str} {l : List Action} {ms : List (M Environ Int)} (hf : ∀ a ∈ l, Fixed names a)
    (hp : Program sys l ms) : ∃ ps : List (M Environ Int × Str), ms = ps.map Prod.fst ∧ ∀ p ∈ ps, Fix names p.1 p.2 := by
  induction hp with
  | nil => exact ⟨[], rfl, fun _ h => by cases h⟩
  | cons hd _ ih =>
    obtain ⟨ps, rfl, h⟩ := ih fun a ha => hf a (.tail _ ha)
    obtain ⟨name, hx⟩ := fixed_does (hf _ (.head _)) hd
    refine ⟨(_, name) :: ps, rfl, fun p hp => ?_⟩
    rcases List.mem_cons.1 hp with rfl | hp
    · exact hx
    · exact h p hp

theorem runAll_fix (E : Env Shared Actions) {names : List Str} (ps : List (M Environ Int × Str)) (hps : ∀ p ∈ ps, Fix names p.1 p.2) :
    ∀ (D : Str → Prop) (acc : Int) (env env' : Environ) (i : Int), AgreeOff names env env' → (∀ k, D k → Dict.get? env k = Dict.get? env' k) →
      (runAll E (ps.map Prod.fst) acc env).1 = .ok i →
      (runAll E (ps.map Prod.fst) acc env').1 = .ok i ∧ (runAll E (ps.map Prod.fst) acc env).2.2 = [] ∧
      (runAll E (ps.map Prod.fst) acc env').2.2 = [] ∧
      (∀ k, D k ∨ k ∈ ps.map Prod.snd → Dict.get? (runAll E (ps.map Prod.fst) acc env).2.1 k = Dict.get? (runAll E (ps.map Prod.fst) acc env').2.1 k) ∧
      (∀ k, k ∉ ps.map Prod.snd → Dict.get? (runAll E (ps.map Prod.fst) acc env').2.1 k = Dict.get? env' k) ∧
      (∀ k, k ∉ ps.map Prod.snd → Dict.get? (runAll E (ps.map Prod.fst) acc env).2.1 k = Dict.get? env k) := by
  induction ps with
  | nil =>
    intro D acc env env' i _ hD h
    exact ⟨h, rfl, rfl, fun k hk => hk.elim (hD k) (fun h => by cases h), fun _ _ => rfl, fun _ _ => rfl⟩
  | cons p ps ih =>
    intro D acc env env' i ha hD h
    have hx := hps p (.head _)
    rw [List.map_cons] at h ⊢
    unfold runAll at h ⊢
    have o1 := hx.others env
    have o2 := hx.others env'
    have st := hx.status env
    have sm := hx.same env env' ha
    generalize p.1 env = x at h o1 st sm ⊢
    generalize p.1 env' = y at o2 sm ⊢
    obtain ⟨x1, x2⟩ := x
    obtain ⟨y1, y2⟩ := y
    cases x1 with
    | exc e => cases h
    | diverge => cases h
    | ok r =>
      obtain ⟨e1, e2⟩ := sm r rfl
      cases st r rfl
      cases e1
      dsimp only at h o1 o2 e2 ⊢
      rw [if_pos rfl] at h
      simp only [if_pos]
      have ha' : AgreeOff names x2 y2 := fun k hk => by
        have hne : k ≠ p.2 := fun e => hk (e ▸ hx.inside)
        rw [o1 k hne, o2 k hne, ha k hk]
      have hD' : ∀ k, D k ∨ k = p.2 → Dict.get? x2 k = Dict.get? y2 k := by
        intro k hk
        by_cases hkp : k = p.2
        · rw [hkp]; exact e2
        · rw [o1 k hkp, o2 k hkp]; exact hD k (hk.resolve_right hkp)
      obtain ⟨g1, g2, g3, g4, g5, g6⟩ := ih (fun q hq => hps q (.tail _ hq)) (fun k => D k ∨ k = p.2) _ x2 y2 i ha' hD' h
      refine ⟨g1, g2, g3, fun k hk => g4 k ?_, fun k hk => ?_, fun k hk => ?_⟩
      · rcases hk with hk | hk
        · exact .inl (.inl hk)
        · rcases List.mem_cons.1 (by simpa using hk : k ∈ p.2 :: ps.map Prod.snd) with hk | hk
          · exact .inl (.inr hk)
          · exact .inr hk
      · rw [List.map_cons] at hk
        rw [g5 k fun h => hk (.tail _ h), o2 k fun e => hk (by rw [e]; exact .head _)]
      · rw [List.map_cons] at hk
        rw [g6 k fun h => hk (.tail _ h), o1 k fun e => hk (by rw [e]; exact .head _)]

/-- C89: after a successful `apply` of a list that only sets and unsets variables, to values that do not refer to them,
applying the list again (with this object or another one, in the environment as it is now) succeeds too, with the same
status and no notice, and leaves all variables as they are. -/
theorem C89_apply {sys : Sys} (E : Env Shared Actions) {n n' : Nat} {s s' : Str} {S S' T : State}
    {x x' : Out (Dict Str (Option Str))} {o o' : Obj Shared Actions}
    (hg : edGetItem E n s S.obj = (x, o)) (hx : (∃ v, x = .ok v) ∨ x = .exc .keyError)
    (hg' : edGetItem E n' s' S'.obj = (x', o')) (hx' : (∃ v, x' = .ok v) ∨ x' = .exc .keyError)
    {l : List Action} (hlist : Dict.get? o.self s = some l) (hlist' : Dict.get? o'.self s' = some l)
    {ms : List (M Environ Int)} (hp : Program sys l ms) (hc : ∀ a ∈ l, Clean a) {names : List Str} (hf : ∀ a ∈ l, Fixed names a)
    {i : Int} (h : SetEnv.apply sys E n s S = (.ok i, T)) (henv : S'.environ = T.environ) :
    ∃ T', SetEnv.apply sys E n' s' S' = (.ok i, T') ∧ SameVars T.environ T'.environ ∧
      (T.obj = o ∧ T.files = S.files) ∧ T'.obj = o' ∧ T'.files = S'.files := by
  have h1 := C48_apply sys E S hg hx hlist hp hc
  have h2 := C48_apply sys E S' hg' hx' hlist' hp hc
  obtain ⟨ps, rfl, hps⟩ := fixed_program hf hp
  rw [h] at h1
  have hT : T = _ := congrArg Prod.snd h1
  have hTe : T.environ = (runAll E (ps.map Prod.fst) 0 S.environ).2.1 := by rw [hT]
  have hok : (runAll E (ps.map Prod.fst) 0 S.environ).1 = .ok i := (congrArg Prod.fst h1).symm
  have off : AgreeOff names S.environ T.environ := by
    intro k hk
    have hno : k ∉ ps.map Prod.snd := by
      intro hm
      obtain ⟨p, hp, rfl⟩ := List.mem_map.1 hm
      exact hk (hps p hp).inside
    rw [hTe]
    exact ((runAll_fix E ps hps (fun _ => False) 0 S.environ S.environ i (fun _ _ => rfl) (fun _ h => h.elim) hok).2.2.2.2.2 k hno).symm
  obtain ⟨g1, g2, g3, g4, g5, _⟩ := runAll_fix E ps hps (fun _ => False) 0 S.environ T.environ i off (fun _ h => h.elim) hok
  rw [henv] at h2
  refine ⟨_, h2.trans (Prod.ext g1 rfl), fun k => ?_, ⟨?_, ?_⟩, ?_, rfl⟩
  · show Dict.get? T.environ k = Dict.get? (runAll E (ps.map Prod.fst) 0 T.environ).2.1 k
    by_cases hk : k ∈ ps.map Prod.snd
    · rw [← g4 k (.inr hk), ← hTe]
    · exact (g5 k hk).symm
  · rw [hT]; dsimp only; rw [g2, List.append_nil]
  · rw [hT]
  · dsimp only; rw [g3, List.append_nil]

/-- C89: in particular a second `apply` with the same object changes nothing at all but, at most, the order of the
variables. -/
theorem C89_same_object {sys : Sys} (E : Env Shared Actions) {n : Nat} {s : Str} {S T : State} {v : Dict Str (Option Str)}
    {o : Obj Shared Actions} (hg : edGetItem E n s S.obj = (.ok v, o)) {l : List Action} (hlist : Dict.get? o.self s = some l)
    {ms : List (M Environ Int)} (hp : Program sys l ms) (hc : ∀ a ∈ l, Clean a) {names : List Str} (hf : ∀ a ∈ l, Fixed names a)
    {i : Int} (h : SetEnv.apply sys E n s S = (.ok i, T)) :
    ∃ T', SetEnv.apply sys E n s T = (.ok i, T') ∧ SameVars T.environ T'.environ ∧ T'.obj = T.obj ∧ T'.files = T.files := by
  obtain ⟨_, _, _, ⟨ho, _⟩, _⟩ := C89_apply E (S' := { S with environ := T.environ }) hg (.inl ⟨_, rfl⟩) hg (.inl ⟨_, rfl⟩) hlist hlist hp hc hf h rfl
  have hg' : edGetItem E n s T.obj = (.ok v, o) := by rw [ho]; exact getItem_again E hg
  obtain ⟨T', h1, h2, _, h3, h4⟩ := C89_apply E hg (.inl ⟨_, rfl⟩) hg' (.inl ⟨_, rfl⟩) hlist hlist hp hc hf h rfl
  exact ⟨T', h1, h2, h3.trans ho.symm, h4⟩

/-! ### A concrete case -/

/-- A section that sets and unsets; the second value refers to a variable that is not touched. -/
def twiceCfg : Cfg where
  sections := [(py!"P", [(py!"envvar-set WHO", some py!"me"), (py!"envvar-set LIB", some py!"${HOME}/lib"), (py!"envvar-unset WHO", none)])]

def twiceList : List Action :=
  [.envvar py!"envvar_set" py!"WHO" (some py!"me"), .envvar py!"envvar_set" py!"LIB" (some py!"${HOME}/lib"), .envvar py!"envvar_unset" py!"WHO" none]

theorem twice_fixed : ∀ a ∈ twiceList, Fixed [py!"WHO", py!"LIB"] a := by
  intro a ha
  simp only [twiceList, List.mem_cons, List.not_mem_nil, or_false] at ha
  rcases ha with rfl | rfl | rfl
  · exact .set (by decide) (by decide +kernel)
  · exact .set (by decide) (by decide +kernel)
  · exact .unset (by decide)

/-- The first `apply` changes the environment, the second one with the same object does not. -/
example :
    let E := env twiceCfg exampleSettings
    let S := State.fresh E exampleEnviron []
    ∃ T T', SetEnv.apply exampleSys E 9 py!"P" S = (.ok 0, T) ∧ SetEnv.apply exampleSys E 9 py!"P" T = (.ok 0, T') ∧
      ¬ SameVars S.environ T.environ ∧ SameVars T.environ T'.environ := by
  intro E S
  have hP : SetEnv.apply exampleSys E 9 py!"P" S = (.ok 0, (SetEnv.apply exampleSys E 9 py!"P" S).2) := pair_eq (by decide +kernel)
  have g1 : edGetItem E 9 py!"P" S.obj = (.ok [], (edGetItem E 9 py!"P" S.obj).2) := pair_eq (by decide +kernel)
  have l1 : Dict.get? (edGetItem E 9 py!"P" S.obj).2.self py!"P" = some twiceList := by decide +kernel
  have hp : Program exampleSys twiceList _ :=
    .cons (.envvar (.two (op := py!"set") (by decide) (by decide))) (.cons (.envvar (.two (op := py!"set") (by decide) (by decide)))
      (.cons (.unset .unset) .nil))
  have hc : ∀ a ∈ twiceList, Clean a := by
    intro a ha
    simp only [twiceList, List.mem_cons, List.not_mem_nil, or_false] at ha
    rcases ha with rfl | rfl | rfl <;> simp [Clean, Readable] <;> decide
  obtain ⟨T', h1, h2, _, _⟩ := C89_same_object E g1 l1 hp hc twice_fixed hP
  refine ⟨_, T', hP, h1, fun h => ?_, h2⟩
  have := h py!"LIB"
  revert this
  decide +kernel

/-- A list that appends does not have the property. -/
example : (do let _ ← envvarOp exampleSys py!"append" py!"A" py!"1" true; envvarOp exampleSys py!"append" py!"A" py!"1" true : M Environ Int) [] =
      (.ok 0, [(py!"A", py!"1:1")]) := by rfl

end CPE.Props
