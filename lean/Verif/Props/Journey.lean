import Verif.Proofs.Journey
import Verif.Props.Gather
/-
C78: from the texts of the files to the environment of the process (SetEnvironment).
-/
namespace CPE.Props
open CPE.Spec CPE.SetEnv CPE.SetEnv.Spec

section
variable {f : Life} {st : Settings} {n : Nat} {s : Str} {fs : FS} {ds : List Char} {ps : List Str} {docs : List Doc}
  {os ws wsD : List (Str × Option Str)} {l : List Action} {sys : Sys}

/-- A SetEnvironment object with the files `ps`, which say the documents `docs`, that has not loaded them and has not
looked at section `s`. The name of the section DEFAULT is as it is by default. -/
structure Prepared (f : Life) (st : Settings) (fs : FS) (ds : List Char) (ps : List Str) (docs : List Doc) (s : Str) : Prop where
  delims : Delims f.full ds
  unloaded : f.full.cfg = none
  files : f.full.files = some ps
  nonempty : ps ≠ []
  texts : FilesSay fs ds ps docs
  unseen : s ∉ f.full.obj.checked
  low : 2 ≤ f.full.level
  high : f.full.level ≤ 4
  default : st.defaultName = py!"DEFAULT"

/-- `Planned c s l`: configuration `c` asks, for section `s`, for the actions `l`: the options of the section, with each
`use` replaced by what the used section gives, after those of DEFAULT. -/
structure Planned (c : Cfg) (s : Str) (os wsD ws : List (Str × Option Str)) (l : List Action) : Prop where
  hookless : Hookless c
  body : BodyOf c s os
  prelude : Prelude c s wsD
  gathered : Gathers c (fun _ => True) [s] s os ws
  plan : Plan (wsD ++ ws) l

theorem prepared_load (h : Prepared f st fs ds ps docs s) :
    f.full.configdata fs = (.ok (together docs), { f.full with cfg := some (together docs) }) := by
  have := C43_files_in_order (K := cls st) (n := 0) h.delims h.unloaded h.files h.nonempty h.texts
  change Out.map' FVal.cfg (f.full.configdata fs).1 = _ at this
  rcases hx : f.full.configdata fs with ⟨x | x | _, g⟩ <;> rw [hx] at this <;> cases this
  rw [(configdata_ok hx).2]
  rfl

theorem lookup_exec {E : Env Shared Actions} {o o' : Obj Shared Actions} {x : Out Shared} (hs : E.cfg.hasSection s = true) (hne : s ≠ [])
    (hu : s ∉ o.checked) (hp : parseSection E n s true true o = (x, o')) :
    (∀ r, x = .ok r → ∃ d, (EdOp.getItem s).exec E n o = (.ok (.opts d), o')) ∧
    ∀ e, x = .exc e → (EdOp.getItem s).exec E n o = (.exc e, o') := by
  have hget : (EdOp.getItem s).exec E n o = (edGet E n s >>= fun r => pure (EdVal.opts r)) o := by
    change (edOptions E n s >>= fun r => pure (EdVal.opts r)) o = _
    rw [M.bind_def, M.bind_def, edOptions_apply hs]
  constructor
  · rintro r rfl
    obtain ⟨evs, ht⟩ := parseTrace_total E s true true
    have hd := parseSection_ok_data hp ht
    refine ⟨writeAll ((Dict.get? o.data s).getD []) (stores evs), ?_⟩
    rw [hget, M.bind_def, edGet_apply, parseOwner_first hne false (.inl hu), hp]
    dsimp only
    unfold lookup
    rw [hd]
    rfl
  · rintro e rfl
    rw [hget, M.bind_def, edGet_apply, parseOwner_first hne false (.inl hu), hp]

/-! ### The list of actions -/

/-- C78: the plan read off the options is the list of actions of the section, and there is no other: neither another plan
nor another list. -/
theorem C78_list (h : Planned (together docs) s os wsD ws l) (hst : st.defaultName = py!"DEFAULT") :
    ListOf st (together docs) true s l ∧ (∀ l', ListOf st (together docs) true s l' → l' = l) ∧
      ∀ os' wsD' ws' l', Planned (together docs) s os' wsD' ws' l' → l' = l := by
  have mine : ∀ {os wsD ws l}, Planned (together docs) s os wsD ws l → ListOf st (together docs) true s l := fun h => by
    obtain ⟨_, _, _, hl⟩ := planned_list (st := st) (together_once docs) h.hookless hst h.body h.prelude h.gathered h.plan
    exact hl
  have one : ∀ l', ListOf st (together docs) true s l' → l' = l := by
    rintro l' ⟨cs', h1', h2'⟩
    obtain ⟨cs, h1, h2⟩ := mine h
    exact (C47_list_unique h1' h2' h1 h2).2
  exact ⟨mine h, one, fun _ _ _ l' h' => one l' (mine h')⟩

/-! ### Performing it -/

theorem op_runs (op x y : Str) (env : Environ) :
    ∃ ch, Demand (sys.which env (expandvars env y)) op (Dict.get? env x) (expandvars env y) ch ∧
      ((∃ env', Applied env x ch env' ∧ envvarOp sys op x y true env = (.ok 0, env')) ∨
        ∃ e, Denied x ch e ∧ envvarOp sys op x y true env = (.exc e, env)) := by
  have hx := (expands_iff env y _).2 rfl
  obtain ⟨ch, hd, _⟩ := C45_demand (sys.which env (expandvars env y)) op (Dict.get? env x) (expandvars env y)
  refine ⟨ch, hd, ?_⟩
  have h := C45_exact sys hx hd
  cases ch with
  | keep => exact .inl ⟨_, .keep, h⟩
  | refuse => exact .inr ⟨_, .refuse, h⟩
  | unset =>
    obtain ⟨env', h1, h2⟩ := h
    exact .inl ⟨_, .unset h2, h1⟩
  | write v =>
    by_cases hb : '=' ∈ x ∨ Char.ofNat 0 ∈ x ∨ Char.ofNat 0 ∈ v
    · exact .inr ⟨_, .chars hb, h.2.1 hb⟩
    · have hv : Char.ofNat 0 ∉ v := fun h => hb (.inr (.inr h))
      by_cases h0 : x = []
      · exact .inr ⟨_, .name h0 hv, h.2.2 ⟨h0, hv⟩⟩
      · have hn : ValidName x := ⟨h0, fun h => hb (.inl h), fun h => hb (.inr (.inl h))⟩
        obtain ⟨env', h1, h2⟩ := h.1 ⟨hn, hv⟩
        exact .inl ⟨_, .write hn hv h2, h1⟩

/-- An environment operation, in the words of the specification. -/
theorem envvar_runs {a : Action} {op x y : Str} (ht : Touches a op x y) (env : Environ) :
    (∃ ch env', Wants sys env a x ch ∧ Applied env x ch env' ∧ envvarOp sys op x y true env = (.ok 0, env')) ∨
    (∃ ch e, Wants sys env a x ch ∧ Denied x ch e ∧ envvarOp sys op x y true env = (.exc e, env)) := by
  obtain ⟨ch, hd, h⟩ := op_runs (sys := sys) op x y env
  have hw : Wants sys env a x ch := ⟨op, y, _, ht, (expands_iff env y _).2 rfl, hd⟩
  rcases h with ⟨env', h1, h2⟩ | ⟨e, h1, h2⟩
  · exact .inl ⟨_, _, hw, h1, h2⟩
  · exact .inr ⟨_, _, hw, h1, h2⟩

theorem runs_of_runAll {E : Env Shared Actions} (hl : 2 ≤ E.level) {ms : List (M Environ Int)} (hp : Performing sys l ms) :
    ∀ env, Runs sys l env (runAll E ms 0 env).1 (runAll E ms 0 env).2.1 := by
  induction hp with
  | nil => exact fun env => .done
  | @cons a m as ms ha _ ih =>
    intro env
    have touch : ∀ {op x y : Str}, Touches a op x y → m = envvarOp sys op x y true →
        Runs sys (a :: as) env (runAll E (m :: ms) 0 env).1 (runAll E (m :: ms) 0 env).2.1 := by
      rintro op x y ht rfl
      rcases envvar_runs (sys := sys) ht env with ⟨ch, env', h1, h2, h3⟩ | ⟨ch, e, h1, h2, h3⟩
      · unfold runAll
        rw [h3]
        dsimp only
        rw [if_pos rfl]
        exact .change h1 h2 (ih env')
      · unfold runAll
        rw [h3]
        exact .denied h1 h2
    cases ha with
    | unset h1 h2 => exact touch (.unset h1 h2) rfl
    | envvar h1 h2 h3 => exact touch (.two h1 h2 h3) rfl
    | @module _ xs h1 h2 =>
      unfold runAll
      rcases hx : sys.module xs env with ⟨i | e | _, env'⟩
      · dsimp only
        by_cases hi : i = 0
        · subst hi
          rw [if_pos rfl]
          exact .module h1 h2 hx (ih env')
        · rw [if_neg hi, if_pos hl]
          exact .status h1 h2 hx hi
      · exact .raises h1 h2 hx
      · exact .hangs h1 h2 hx
    | incomplete h => exact .lacks h
    | erroneous h1 h2 => exact .unreadable h1 h2

theorem life_apply (f : Life) {v : EdVal Shared} {g : Full Shared Actions}
    (hg : f.full.runOp (cls st) n fs (.getItem s) = (.ok v, g)) (hl : Dict.get? g.obj.self s = some l)
    {ms : List (M Environ Int)} (hp : Performing sys l ms) :
    Life.apply sys st n fs s f =
      ((runAll (g.env (cls st) emptyCfg) ms 0 f.environ).1,
        { f with
          full := { g with obj := { g.obj with
            out := g.obj.out ++ (runAll (g.env (cls st) emptyCfg) ms 0 f.environ).2.2 } },
          environ := (runAll (g.env (cls st) emptyCfg) ms 0 f.environ).2.1 }) := by
  unfold Life.apply
  have h1 : lookForApply st n fs s f = (.ok (), { f with full := g }) := by
    unfold lookForApply
    rw [hg]
  rw [M.bind_ok h1, M.read_bind]
  unfold onConsole onState
  dsimp only
  have h2 : actionsOf s ⟨g.obj, f.environ, f.scripts⟩ = (.ok l, ⟨g.obj, f.environ, f.scripts⟩) := by
    unfold actionsOf
    rw [M.read_bind]
    dsimp only
    rw [hl]
    rfl
  rw [M.bind_ok h2, applyLoop_performing sys _ hp]
  rfl

theorem prepared_lookup (hw : Prepared f st fs ds ps docs s) (hn : (together docs).sectionNames.length + 3 ≤ n)
    (hs : s ∈ (together docs).sectionNames) (hne : s ≠ []) (h : Planned (together docs) s os wsD ws l) :
    ∃ v g, f.full.runOp (cls st) n fs (.getItem s) = (.ok v, g) ∧ Dict.get? g.obj.self s = some l ∧ g.level = f.full.level ∧
      ∀ t, t ≠ s → Dict.get? g.obj.self t = Dict.get? f.full.obj.self t := by
  have hc := prepared_load hw
  have hmem : (together docs).hasSection s = true := (Dict.mem_iff _ _).2 hs
  obtain ⟨r, o', hp⟩ := parse_planned (st := { st with level := f.full.level }) (together_once docs) h.hookless hw.default hw.high hne
    hn h.body h.prelude h.gathered h.plan f.full.obj
  obtain ⟨d, hex⟩ := (lookup_exec (E := f.full.env (cls st) (together docs)) hmem hne hw.unseen hp).1 r rfl
  have hg := runOp_getItem (cls st) n s hc
  rw [hex] at hg
  obtain ⟨l', h1, h2, h3⟩ := C70_apply_new f hc (hookless_noHook (together_once docs) h.hookless st) hw.unseen hmem hg
  rw [(C78_list h hw.default).2.1 l' h1] at h2
  exact ⟨_, _, hg, h2, rfl, h3⟩

/-- C78: from texts to the environment. The files of a SetEnvironment object say the documents `docs`; the options of
section `s` of these documents, taken together, ask for the actions `l`. Then `apply(s)` performs these, one after the
other, on the environment of the process (`Runs`: which variable gets which value, where it ends and with which
exception), the object has the list `l` for the section, and no list of another section changes. -/
theorem C78_apply (hw : Prepared f st fs ds ps docs s) (hn : (together docs).sectionNames.length + 3 ≤ n)
    (hs : s ∈ (together docs).sectionNames) (hne : s ≠ []) (h : Planned (together docs) s os wsD ws l)
    (hl : ∀ a ∈ l, Legible a ∨ Illegible a ∨ Incomplete a) :
    Runs sys l f.environ (Life.apply sys st n fs s f).1 (Life.apply sys st n fs s f).2.environ ∧
    Dict.get? (Life.apply sys st n fs s f).2.full.obj.self s = some l ∧
    (∀ t, t ≠ s → Dict.get? (Life.apply sys st n fs s f).2.full.obj.self t = Dict.get? f.full.obj.self t) ∧
    (Life.apply sys st n fs s f).2.scripts = f.scripts ∧ (Life.apply sys st n fs s f).2.stdout = f.stdout := by
  obtain ⟨v, g, hg, h1, h2, h3⟩ := prepared_lookup hw hn hs hne h
  have hex : ∃ ms, Performing sys l ms := by
    clear h h1
    induction l with
    | nil => exact ⟨[], .nil⟩
    | cons a l ih =>
      obtain ⟨m, hm⟩ := C75_performs_some sys (hl a List.mem_cons_self)
      obtain ⟨ms, hms⟩ := ih fun b hb => hl b (List.mem_cons_of_mem _ hb)
      exact ⟨m :: ms, .cons hm hms⟩
  obtain ⟨ms, hms⟩ := hex
  rw [life_apply f hg h1 hms]
  have hlv : 2 ≤ (g.env (cls st) emptyCfg).level := by
    show 2 ≤ g.level
    rw [h2]; exact hw.low
  exact ⟨runs_of_runAll hlv hms f.environ, h1, h3, rfl, rfl⟩

/-- C78: a script of the section has one line per action of the plan, whether or not `apply` has been called before. -/
theorem C78_script (hw : Prepared f st fs ds ps docs s) (hn : (together docs).sectionNames.length + 3 ≤ n)
    (hs : s ∈ (together docs).sectionNames) (hne : s ≠ []) (h : Planned (together docs) s os wsD ws l)
    (h0 : Dict.get? f.full.obj.self s = none) {interp : Str} (hi : interp = py!"bash" ∨ interp = py!"python") {ls : List Str}
    (hls : CommandLines interp l ls) (hdr sheb : Bool) :
    (Life.script sys st n fs s hdr true sheb interp f).1 = .ok (scriptText sys interp hdr sheb (some ls)) ∧
    ((∀ a ∈ l, Legible a ∨ Illegible a ∨ Incomplete a) → ∀ fs',
      (Life.script sys st n fs' s hdr true sheb interp (Life.apply sys st n fs s f).2).1 =
        .ok (scriptText sys interp hdr sheb (some ls))) := by
  constructor
  · have hc := prepared_load hw
    have hmem : (together docs).hasSection s = true := (Dict.mem_iff _ _).2 hs
    obtain ⟨r, o', hp⟩ := parse_planned (st := { st with level := f.full.level }) (together_once docs) h.hookless hw.default hw.high
      hne hn h.body h.prelude h.gathered h.plan f.full.obj
    obtain ⟨m, rfl⟩ : ∃ m, n = m + 1 := ⟨n - 1, by omega⟩
    have hrun := runOp_loaded (cls st) m fs (.parseSection s true true) f.full (by rw [hc]) (by rw [hw.files]; simp)
    have hx : (EdOp.parseSection s true true).exec (f.full.env (cls st) (together docs)) (m + 1) f.full.obj = (.ok (.shared r), o') := by
      change (parseSection _ (m + 1) s true true >>= fun r => pure (EdVal.shared r)) f.full.obj = _
      rw [M.bind_ok (show parseSection (f.full.env (cls st) (together docs)) (m + 1) s true true f.full.obj = _ from hp)]
      rfl
    rw [hx] at hrun
    rcases hg : f.full.runOp (cls st) (m + 1) fs (.parseSection s true true) with ⟨x, g⟩
    rw [hg] at hrun
    obtain ⟨h1, h2⟩ := hrun
    dsimp only at h1 h2
    subst h1 h2
    obtain ⟨cs, l', k1, k2, _, k3, _⟩ := C47_actions (noHook_level f.full.level (hookless_noHook (together_once docs) h.hookless st)) hp
    rw [(C78_list h hw.default).2.1 l' (listOf_level k1 k2)] at k3
    rw [C70_script_new sys hi f h0 hg k3 hls]
  · intro hl fs'
    rw [C70_script_known sys hi _ (C78_apply (sys := sys) hw hn hs hne h hl).2.1 hls]

/-- C78: a section that uses a section which is in none of the files, or that has an operation without a name, is not
applied: `apply(s)` raises KeyError, IndexError respectively, no matter what comes after it in the section, and the
environment is what it was. -/
theorem C78_stuck (hw : Prepared f st fs ds ps docs s) (hn : (together docs).sectionNames.length + 3 ≤ n)
    (hs : s ∈ (together docs).sectionNames) (hne : s ≠ []) (hh : Hookless (together docs)) (hb : BodyOf (together docs) s os)
    (hD : Prelude (together docs) s wsD) (hp : Plan wsD l) {e : PyExc} (hst : Stuck (together docs) [s] s os e)
    (h0 : Dict.get? f.full.obj.self s = none) :
    (Life.apply sys st n fs s f).1 = .exc e ∧ (Life.apply sys st n fs s f).2.environ = f.environ ∧
    (Life.apply sys st n fs s f).2.full.obj.self = f.full.obj.self := by
  have hc := prepared_load hw
  have hmem : (together docs).hasSection s = true := (Dict.mem_iff _ _).2 hs
  obtain ⟨o', hp, hself⟩ := parse_stuck (st := { st with level := f.full.level }) (together_once docs) hh hw.default hw.high hne hn hb hD hp
    hst f.full.obj
  have hex := (lookup_exec (E := f.full.env (cls st) (together docs)) hmem hne hw.unseen hp).2 e rfl
  have hg := runOp_getItem (cls st) n s hc
  rw [hex] at hg
  obtain ⟨r1, _, r3⟩ := C70_apply_raises sys f hg
  by_cases he : e = .keyError
  · subst he
    rw [r3 (.inr ⟨rfl, by show f.full.files ≠ none; rw [hw.files]; simp⟩) (by show Dict.get? o'.self s = none; rw [hself]; exact h0)]
    exact ⟨rfl, rfl, hself⟩
  · rw [r1 e rfl he]
    exact ⟨rfl, rfl, hself⟩

/-! ### One outcome -/

/-- The same variables with the same values. -/
def SameVars (e e' : Environ) : Prop := ∀ x, Dict.get? e x = Dict.get? e' x

/-- The search for executables and the `module` command look at the variables only. -/
structure Honest (sys : Sys) : Prop where
  which : ∀ e e' x, SameVars e e' → sys.which e x = sys.which e' x
  module : ∀ ws e e', SameVars e e' → (sys.module ws e).1 = (sys.module ws e').1 ∧ SameVars (sys.module ws e).2 (sys.module ws e').2

theorem same_expands {e e' : Environ} (h : SameVars e e') {s r : Str} (hs : Expands e s r) : Expands e' s r := by
  induction hs with
  | nil => exact .nil
  | plain h1 _ ih => exact .plain h1 ih
  | braced h1 _ ih => rw [h]; exact .braced h1 ih
  | bare h1 h2 h3 _ ih => rw [h]; exact .bare h1 h2 h3 ih
  | lone h1 _ ih => exact .lone h1 ih

theorem same_becomes {e e' e1 e2 : Environ} (h : SameVars e e') {x : Str} {v : Option Str} (h1 : Becomes e x v e1)
    (h2 : Becomes e' x v e2) : SameVars e1 e2 := by
  intro y
  by_cases hy : y = x
  · subst hy; rw [h1.1, h2.1]
  · rw [h1.2 y hy, h2.2 y hy, h]

theorem same_applied {e e' e1 e2 : Environ} (h : SameVars e e') {x : Str} {ch : Change} (h1 : Applied e x ch e1)
    (h2 : Applied e' x ch e2) : SameVars e1 e2 := by
  cases h1 with
  | keep => cases h2; exact h
  | unset h1 => cases h2 with | unset h2 => exact same_becomes h h1 h2
  | write _ _ h1 => cases h2 with | write _ _ h2 => exact same_becomes h h1 h2

theorem denied_det {x : Str} {ch : Change} {e e' : PyExc} (h : Denied x ch e) (h' : Denied x ch e') : e = e' := by
  have no : ∀ {v : Str}, x = [] → Char.ofNat 0 ∉ v → ¬ ('=' ∈ x ∨ Char.ofNat 0 ∈ x ∨ Char.ofNat 0 ∈ v) := by
    rintro v rfl h
    simp only [List.not_mem_nil, false_or]
    exact h
  cases h with
  | refuse => cases h'; rfl
  | name h1 h2 =>
    cases h' with
    | name => rfl
    | chars h => exact absurd h (no h1 h2)
  | chars h =>
    cases h' with
    | name h1 h2 => exact absurd h (no h1 h2)
    | chars => rfl

theorem applied_denied {x : Str} {env env' : Environ} {ch : Change} {e : PyExc} (h : Applied env x ch env') (h' : Denied x ch e) : False := by
  cases h with
  | keep => cases h'
  | unset => cases h'
  | write h1 h2 _ =>
    cases h' with
    | name h _ => exact h1.1 h
    | chars h =>
      rcases h with h | h | h
      · exact h1.2.1 h
      · exact h1.2.2 h
      · exact h2 h

theorem same_op (hs : Honest sys) {e e' : Environ} (h : SameVars e e') (op x y : Str) :
    (envvarOp sys op x y true e).1 = (envvarOp sys op x y true e').1 ∧
      SameVars (envvarOp sys op x y true e).2 (envvarOp sys op x y true e').2 := by
  have hex : expandvars e y = expandvars e' y := (expands_iff e' y _).1 (same_expands h ((expands_iff e y _).2 rfl))
  obtain ⟨ch, hd, h1⟩ := op_runs (sys := sys) op x y e
  obtain ⟨ch', hd', h2⟩ := op_runs (sys := sys) op x y e'
  rw [hex, hs.which _ _ _ h, h x] at hd
  obtain ⟨c0, _, hu⟩ := C45_demand (sys.which e' (expandvars e' y)) op (Dict.get? e' x) (expandvars e' y)
  rw [hu _ hd] at h1
  rw [hu _ hd'] at h2
  rcases h1 with ⟨e1, h1, k1⟩ | ⟨x1, h1, k1⟩ <;> rcases h2 with ⟨e2, h2, k2⟩ | ⟨x2, h2, k2⟩ <;> rw [k1, k2]
  · exact ⟨rfl, same_applied h h1 h2⟩
  · exact (applied_denied h1 h2).elim
  · exact (applied_denied h2 h1).elim
  · exact ⟨by rw [denied_det h1 h2], h⟩

theorem same_performs (hs : Honest sys) {a : Action} {m : M Environ Int} (hm : Performs sys a m) {e e' : Environ} (h : SameVars e e') :
    (m e).1 = (m e').1 ∧ SameVars (m e).2 (m e').2 := by
  cases hm with
  | unset => exact same_op hs h _ _ _
  | envvar => exact same_op hs h _ _ _
  | module => exact hs.module _ _ _ h
  | incomplete => exact ⟨rfl, h⟩
  | erroneous => exact ⟨rfl, h⟩

theorem wants_performs {a : Action} {x : Str} {ch : Change} {env : Environ} (h : Wants sys env a x ch) :
    ∃ m, Performs sys a m ∧ (∀ env', Applied env x ch env' → ∃ e2, m env = (.ok 0, e2) ∧ SameVars e2 env') ∧
      ∀ e, Denied x ch e → m env = (.exc e, env) := by
  obtain ⟨op, y, z, ht, hz, hd⟩ := h
  have hm : Performs sys a (envvarOp sys op x y true) := by
    cases ht with
    | unset h1 h2 => exact .unset h1 h2
    | two h1 h2 h3 => exact .envvar h1 h2 h3
  refine ⟨_, hm, ?_⟩
  obtain ⟨ch', hd', h1⟩ := op_runs (sys := sys) op x y env
  rw [← (expands_iff env y _).1 hz] at hd'
  obtain ⟨c0, _, hu⟩ := C45_demand (sys.which env z) op (Dict.get? env x) z
  rw [hu _ hd', ← hu _ hd] at h1
  rcases h1 with ⟨e1, h1, k1⟩ | ⟨x1, h1, k1⟩
  · exact ⟨fun env' h => ⟨e1, k1, same_applied (fun _ => rfl) h1 h⟩, fun e h => (applied_denied h1 h).elim⟩
  · exact ⟨fun env' h => (applied_denied h h1).elim, fun e h => by rw [k1, denied_det h1 h]⟩

theorem runs_first {a : Action} {e e1 : Environ} {r : Out Int} (h : Runs sys (a :: l) e r e1) :
    ∃ m, Performs sys a m ∧
      ((∃ e2 e3, m e = (.ok 0, e2) ∧ SameVars e2 e3 ∧ Runs sys l e3 r e1) ∨
        (∃ i, m e = (.ok i, e1) ∧ i ≠ 0 ∧ r = .exc .runtimeError) ∨ m e = (r, e1) ∧ ∀ i, r ≠ .ok i) := by
  cases h with
  | change h1 h2 h3 =>
    obtain ⟨m, k1, k2, _⟩ := wants_performs h1
    obtain ⟨e2, k3, k4⟩ := k2 _ h2
    exact ⟨m, k1, .inl ⟨e2, _, k3, k4, h3⟩⟩
  | denied h1 h2 =>
    obtain ⟨m, k1, _, k2⟩ := wants_performs h1
    exact ⟨m, k1, .inr (.inr ⟨k2 _ h2, fun _ h => nomatch h⟩)⟩
  | module h1 h2 h3 h4 => exact ⟨_, .module h1 h2, .inl ⟨_, _, h3, fun _ => rfl, h4⟩⟩
  | status h1 h2 h3 h4 => exact ⟨_, .module h1 h2, .inr (.inl ⟨_, h3, h4, rfl⟩)⟩
  | raises h1 h2 h3 => exact ⟨_, .module h1 h2, .inr (.inr ⟨h3, fun _ h => nomatch h⟩)⟩
  | hangs h1 h2 h3 => exact ⟨_, .module h1 h2, .inr (.inr ⟨h3, fun _ h => nomatch h⟩)⟩
  | lacks h1 => exact ⟨_, .incomplete h1, .inr (.inr ⟨rfl, fun _ h => nomatch h⟩)⟩
  | unreadable h1 h2 => exact ⟨_, .erroneous h1 h2, .inr (.inr ⟨rfl, fun _ h => nomatch h⟩)⟩

/-- C78: what performing a list of actions ends with and the values of all variables after it are determined by the list
and by the values of the variables before it. -/
theorem C78_one_outcome (hs : Honest sys) : ∀ {l : List Action} {e e' e1 e1' : Environ} {r r' : Out Int}, SameVars e e' →
    Runs sys l e r e1 → Runs sys l e' r' e1' → r = r' ∧ SameVars e1 e1' := by
  intro l
  induction l with
  | nil => intro e e' e1 e1' r r' h h1 h2; cases h1; cases h2; exact ⟨rfl, h⟩
  | cons a l ih =>
    intro e e' e1 e1' r r' h h1 h2
    obtain ⟨m, p1, q1⟩ := runs_first h1
    obtain ⟨m', p2, q2⟩ := runs_first h2
    cases C75_performs_one sys p1 p2
    obtain ⟨s1, s2⟩ := same_performs hs p1 h
    rcases q1 with ⟨e2, e3, k1, k2, k3⟩ | ⟨i, k1, k2, rfl⟩ | ⟨k1, k2⟩ <;>
    rcases q2 with ⟨e2', e3', k1', k2', k3'⟩ | ⟨i', k1', k2', rfl⟩ | ⟨k1', k2'⟩ <;>
    rw [k1, k1'] at s1 s2 <;> dsimp only at s1 s2
    · exact ih (fun x => by rw [← k2 x, s2 x, k2' x]) k3 k3'
    · exact absurd (by cases s1; rfl) k2'
    · exact absurd s1.symm (k2' _)
    · exact absurd (by cases s1; rfl) k2
    · exact ⟨rfl, s2⟩
    · exact absurd s1.symm (k2' _)
    · exact absurd s1 (k2 _)
    · exact absurd s1 (k2 _)
    · exact ⟨s1, s2⟩

end

/-! ### From a concrete text to the environment -/

namespace JourneyExample
open IniExample
open GatherExample (line key head words shown)

def text : Str :=
  py!"[TOOLS]\nenvvar-prepend PATH: \"/opt/bin\"\nenvvar-set CC: gcc\nmodule-load gcc: 12\n[MAIN]\nnote: ok\nuse TOOLS\nenvvar-remove CC\nenvvar-set TMP: ${HOME}/tmp\n[BAD]\nenvvar-set TMP: 1\nuse NOWHERE\n[NAMELESS]\nuse TOOLS\nenvvar-unset\n"

def doc : Doc :=
  [(py!"TOOLS", [(py!"envvar-prepend PATH", some [py!"\"/opt/bin\""]), (py!"envvar-set CC", some [py!"gcc"]), (py!"module-load gcc", some [py!"12"])]),
   (py!"MAIN", [(py!"note", some [py!"ok"]), (py!"use TOOLS", none), (py!"envvar-remove CC", none), (py!"envvar-set TMP", some [py!"${HOME}/tmp"])]),
   (py!"BAD", [(py!"envvar-set TMP", some [py!"1"]), (py!"use NOWHERE", none)]),
   (py!"NAMELESS", [(py!"use TOOLS", none), (py!"envvar-unset", none)])]

theorem says : Says ds text doc := by
  refine ⟨[], [py!"[TOOLS]", py!"envvar-prepend PATH: \"/opt/bin\"", py!"envvar-set CC: gcc", py!"module-load gcc: 12", py!"[MAIN]", py!"note: ok",
    py!"use TOOLS", py!"envvar-remove CC", py!"envvar-set TMP: ${HOME}/tmp", py!"[BAD]", py!"envvar-set TMP: 1", py!"use NOWHERE",
    py!"[NAMELESS]", py!"use TOOLS", py!"envvar-unset"], by simp, ?_, ?_⟩
  · refine .cons (skip := []) (i := 0) (ls := [py!"envvar-prepend PATH: \"/opt/bin\"", py!"envvar-set CC: gcc", py!"module-load gcc: 12"])
      head (by simp) (.cons (ls := [_]) line (.cons (ls := [_]) line (.cons (ls' := []) line .nil))) ?_
    refine .cons (skip := []) (i := 0) (ls := [py!"note: ok", py!"use TOOLS", py!"envvar-remove CC", py!"envvar-set TMP: ${HOME}/tmp"])
      head (by simp) (.cons (ls := [_]) line (.cons (ls := [_]) key (.cons (ls := [_]) key (.cons (ls' := []) line .nil)))) ?_
    refine .cons (skip := []) (i := 0) (ls := [py!"envvar-set TMP: 1", py!"use NOWHERE"]) head (by simp)
      (.cons (ls := [_]) line (.cons (ls' := []) key .nil)) ?_
    exact .cons (skip := []) (i := 0) (ls := [py!"use TOOLS", py!"envvar-unset"]) (ls' := []) head (by simp)
      (.cons (ls := [_]) key (.cons (ls' := []) key .nil)) .nil
  · exact .unix (.unix (.unix (.unix (.unix (.unix (.unix (.unix (.unix (.unix (.unix (.unix (.unix (.unix (.unix .nil))))))))))))))

def files : FS := fun p => if p = py!"a" then .file text else .absent

def life : Life :=
  { full := { files := some [py!"a"], delims := [py!"=", py!":"], cfg := none, level := 4, obj := Obj.fresh (env emptyCfg exampleSettings) [] },
    environ := exampleEnviron, scripts := [], stdout := [] }

theorem prepared (s : Str) : Prepared life exampleSettings files ds [py!"a"] [doc] s where
  delims := ⟨rfl, by decide, by decide +kernel⟩
  unloaded := by rfl
  files := by rfl
  nonempty := by decide
  texts := .read (by rfl) says (by decide +kernel) .nil
  unseen := by simp [life, Obj.fresh]
  low := by decide
  high := by decide
  default := by rfl

/-- The options of the sections. -/
def opts : Str → List (Str × Option Str)
  | ['T', 'O', 'O', 'L', 'S'] =>
    [(py!"envvar-prepend PATH", some py!"\"/opt/bin\""), (py!"envvar-set CC", some py!"gcc"), (py!"module-load gcc", some py!"12")]
  | ['M', 'A', 'I', 'N'] =>
    [(py!"note", some py!"ok"), (py!"use TOOLS", none), (py!"envvar-remove CC", none), (py!"envvar-set TMP", some py!"${HOME}/tmp")]
  | ['B', 'A', 'D'] => [(py!"envvar-set TMP", some py!"1"), (py!"use NOWHERE", none)]
  | _ => [(py!"use TOOLS", none), (py!"envvar-unset", none)]

theorem body {s : Str} (h : (s, opts s) ∈ (together [doc]).sections ∧ s ≠ common := by decide +kernel) :
    BodyOf (together [doc]) s (opts s) :=
  .inr ⟨h.2, opts s, h.1, (List.append_nil _).symm⟩

/-- The hypothesis about hooks can be read off the keys. -/
theorem hookless {c : Cfg} (h : ∀ kv ∈ c.common ++ (c.sections.map Prod.snd).flatten, ∃ w ws, shlexSplit (strip kv.1) = .ok (w :: ws) ∧
    w ≠ py!"initialize" ∧ w ≠ py!"finalize") : Hookless c := by
  intro s os hb o ho k w hk ⟨ws, hw⟩
  have hmem : o ∈ c.common ++ (c.sections.map Prod.snd).flatten := by
    rcases hb with ⟨_, rfl⟩ | ⟨_, own, h1, rfl⟩
    · exact List.mem_append_left _ ho
    · rcases List.mem_append.1 ho with h | h
      · exact List.mem_append_right _ (List.mem_flatten.2 ⟨own, List.mem_map.2 ⟨_, h1, rfl⟩, h⟩)
      · exact List.mem_append_left _ (List.mem_filter.1 h).1
  obtain ⟨w', ws', h1, h2⟩ := h o hmem
  rw [← (C11_strip _ _).2 hk] at hw
  rw [(C31_split_iff_words _ _).2 hw] at h1
  cases h1
  exact h2

theorem noHooks : Hookless (together [doc]) := by
  refine hookless ?_
  have : ∀ kv ∈ (together [doc]).common ++ ((together [doc]).sections.map Prod.snd).flatten,
      (match shlexSplit (strip kv.1) with
        | .ok (w :: _) => decide (w ≠ py!"initialize" ∧ w ≠ py!"finalize")
        | _ => false) = true := by decide +kernel
  intro kv hkv
  have := this kv hkv
  split at this
  · rename_i w ws h
    exact ⟨w, ws, h, of_decide_eq_true this⟩
  · cases this

theorem own {c : Cfg} {ok : Str → Prop} {path : List Str} {s k w : Str} {v u : Option Str} {ps : List Str} {os ws : List (Str × Option Str)}
    (hv : ShownAs c s v u) (h : Gathers c ok path s os ws)
    (hk : Tight k ∧ shlexSplit k = .ok (w :: ps) ∧ w ≠ py!"use" ∧ w ≠ py!"initialize" ∧ w ≠ py!"finalize") :
    Gathers c ok path s ((k, v) :: os) ((k, u) :: ws) :=
  .own hk.1 ⟨ps, words hk.2.1⟩ hk.2.2.1 hk.2.2.2.1 hk.2.2.2.2 hv h

theorem operates {k op w : Str} {ps : List Str} (h : shlexSplit k = .ok (w :: ps) ∧ OpWord w ∧ op = opName w := by decide +kernel) :
    Operates k op ps := ⟨w, words h.1, h.2⟩

theorem tools {path : List Str} : Gathers (together [doc]) (fun _ => True) path py!"TOOLS" (opts py!"TOOLS")
    [(py!"envvar-prepend PATH", some py!"/opt/bin"), (py!"envvar-set CC", some py!"gcc"), (py!"module-load gcc", some py!"12")] := by
  refine own (w := py!"envvar-prepend") (ps := [py!"PATH"]) (shown (x := py!"\"/opt/bin\"") (by decide +kernel)) ?_ (by decide +kernel)
  refine own (w := py!"envvar-set") (ps := [py!"CC"]) (shown (x := py!"gcc") (by decide +kernel)) ?_ (by decide +kernel)
  exact own (w := py!"module-load") (ps := [py!"gcc"]) (shown (x := py!"12") (by decide +kernel)) .nil (by decide +kernel)

theorem gathered : Gathers (together [doc]) (fun _ => True) [py!"MAIN"] py!"MAIN" (opts py!"MAIN")
    [(py!"note", some py!"ok"), (py!"envvar-prepend PATH", some py!"/opt/bin"), (py!"envvar-set CC", some py!"gcc"),
      (py!"module-load gcc", some py!"12"), (py!"envvar-remove CC", none), (py!"envvar-set TMP", some py!"${HOME}/tmp")] := by
  refine own (w := py!"note") (ps := []) (shown (x := py!"ok") (by decide +kernel)) ?_ (by decide +kernel)
  refine .use (by decide +kernel) (words (ws := [py!"use", py!"TOOLS"])) .none (by decide) trivial body tools ?_
  refine own (w := py!"envvar-remove") (ps := [py!"CC"]) .none ?_ (by decide +kernel)
  exact own (w := py!"envvar-set") (ps := [py!"TMP"]) (shown (x := py!"${HOME}/tmp") (by decide +kernel)) .nil (by decide +kernel)

def actions : List Action :=
  [.envvar py!"envvar_prepend" py!"PATH" (some py!"/opt/bin"), .module py!"module_load" (some py!"gcc") (some py!"12"),
    .envvar py!"envvar_set" py!"TMP" (some py!"${HOME}/tmp")]

theorem noDrop {k w : Str} {v : Option Str} {a : Action} {ps : List Str}
    (h : shlexSplit k = .ok (w :: ps) ∧ opName w ≠ py!"envvar_remove" ∧ opName w ≠ py!"module_remove") : ¬ Drops (k, v) a := by
  have one : ∀ {op qs}, Operates k op qs → op = opName w := by
    rintro op qs ⟨w', h1, _, rfl⟩
    rw [(C31_split_iff_words _ _).2 h1] at h
    injection h.1 with h
    injection h with h
    rw [h]
  intro hd
  cases hd with
  | envvar g => exact h.2.1 (one g).symm
  | module g => exact h.2.2 (one g).symm
  | mention g => exact h.2.2 (one g).symm

theorem noDrop' {k n : Str} {v x : Option Str} {op : Str} {a : Action} (h : Operates k py!"envvar_remove" [n])
    (ha : (∃ m, a = .envvar op m x ∧ m ≠ n) ∨ ∃ m, a = .module op m x) : ¬ Drops (k, v) a := by
  intro hd
  rcases ha with ⟨m, rfl, hm⟩ | ⟨m, rfl⟩
  · cases hd with | envvar g => exact hm (by have := (operates_det g h).2; injection this)
  · cases hd with
    | module g => exact absurd (operates_det g h).1 (by decide)
    | mention g => exact absurd (operates_det g h).1 (by decide)

theorem plan : Plan [(py!"note", some py!"ok"), (py!"envvar-prepend PATH", some py!"/opt/bin"), (py!"envvar-set CC", some py!"gcc"),
    (py!"module-load gcc", some py!"12"), (py!"envvar-remove CC", none), (py!"envvar-set TMP", some py!"${HOME}/tmp")] actions := by
  have remove : Operates py!"envvar-remove CC" py!"envvar_remove" [py!"CC"] := operates (w := py!"envvar-remove")
  have keep : ∀ v a, ¬ Drops (py!"envvar-set TMP", v) a := fun v a => noDrop (w := py!"envvar-set") (ps := [py!"TMP"]) (by decide +kernel)
  refine .other (.inl ⟨py!"note", [], words, .inr (by decide +kernel)⟩) ?_
  refine .kept (.envvar (ps := []) (operates (w := py!"envvar-prepend")) (by decide +kernel) (by decide)) ?_ ?_
  · simp only [List.mem_cons, List.not_mem_nil, or_false, forall_eq_or_imp, forall_eq]
    exact ⟨noDrop (w := py!"envvar-set") (ps := [py!"CC"]) (by decide +kernel),
      noDrop (w := py!"module-load") (ps := [py!"gcc"]) (by decide +kernel), noDrop' remove (.inl ⟨_, rfl, by decide⟩), keep _ _⟩
  refine .dropped (.envvar (op := py!"envvar_set") (ps := []) (operates (w := py!"envvar-set")) (by decide +kernel) (by decide)) (.tail _ (.head _)) (.envvar remove) ?_
  refine .kept (.module (ps := [py!"gcc"]) (operates (w := py!"module-load")) (by decide +kernel)) ?_ ?_
  · simp only [List.mem_cons, List.not_mem_nil, or_false, forall_eq_or_imp, forall_eq]
    exact ⟨noDrop' remove (.inr ⟨_, rfl⟩), keep _ _⟩
  refine .other (.inr ⟨_, _, _, by decide, remove⟩) ?_
  exact .kept (.envvar (ps := []) (operates (w := py!"envvar-set")) (by decide +kernel) (by decide)) (by simp) .nil

theorem planned : Planned (together [doc]) py!"MAIN" (opts py!"MAIN") []
    [(py!"note", some py!"ok"), (py!"envvar-prepend PATH", some py!"/opt/bin"), (py!"envvar-set CC", some py!"gcc"),
    (py!"module-load gcc", some py!"12"), (py!"envvar-remove CC", none), (py!"envvar-set TMP", some py!"${HOME}/tmp")] actions where
  hookless := noHooks
  body := body
  prelude := .inl ⟨by decide +kernel, rfl⟩
  gathered := gathered
  plan := plan

theorem plainWord {w : Str} (h : Readable w := by refine ⟨?_, ?_, ?_, ?_, ?_⟩ <;> decide) : Literal w w := C75_plain h

theorem legible : ∀ a ∈ actions, Legible a ∨ Illegible a ∨ Incomplete a := by
  simp only [actions, List.mem_cons, List.not_mem_nil, or_false, forall_eq_or_imp, forall_eq]
  exact ⟨.inl ⟨_, _, _, .envvar (.two (op := py!"prepend") (by decide) (by decide)), .cons plainWord (.cons plainWord (.cons plainWord .nil))⟩,
    .inl ⟨_, _, _, .module (.loadVersion (by decide)), .cons plainWord (.cons plainWord .nil)⟩,
    .inl ⟨_, _, _, .envvar (.two (op := py!"set") (by decide) (by decide)), .cons plainWord (.cons plainWord (.cons plainWord .nil))⟩⟩

/-- C78 on the example: what the process has after `apply("MAIN")`. -/
example :
    (Life.apply exampleSys exampleSettings 9 files py!"MAIN" life).1 = .ok 0 ∧
    (∀ x, Dict.get? (Life.apply exampleSys exampleSettings 9 files py!"MAIN" life).2.environ x =
      Dict.get? [(py!"HOME", py!"/home/u"), (py!"PATH", py!"/opt/bin:/bin:/opt/x:/usr/bin:/opt/x"), (py!"EMPTY", []),
        (py!"LOADED", py!"load gcc/12"), (py!"TMP", py!"/home/u/tmp")] x) := by
  have honest : Honest exampleSys := ⟨fun _ _ _ _ => rfl, fun ws e e' h => ⟨rfl, fun x => by
    show Dict.get? (Dict.set e _ _) x = Dict.get? (Dict.set e' _ _) x
    rw [Dict.get?_set, Dict.get?_set, h x]⟩⟩
  have h := (C78_apply (sys := exampleSys) (n := 9) (prepared py!"MAIN") (by decide +kernel) (by decide +kernel) (by decide) planned legible).1
  refine C78_one_outcome honest (fun _ => rfl) h ?_
  have set : ∀ e x v, Becomes e x (some v) (Dict.set e x v) := fun e x v =>
    ⟨by rw [Dict.get?_set, if_pos rfl], fun y hy => by rw [Dict.get?_set, if_neg hy]⟩
  refine .change (x := py!"PATH") (ch := .write py!"/opt/bin:/bin:/opt/x:/usr/bin:/opt/x")
    ⟨py!"prepend", py!"/opt/bin", py!"/opt/bin", .two (.two (by decide) (by decide)) plainWord plainWord,
      (expands_iff _ _ _).2 (by decide +kernel), .prepend⟩ (.write ⟨by decide, by decide, by decide⟩ (by decide) (set _ _ _)) ?_
  refine .module (.loadVersion (by decide)) (.cons plainWord (.cons plainWord .nil)) rfl ?_
  refine .change (x := py!"TMP") (ch := .write py!"/home/u/tmp")
    ⟨py!"set", py!"${HOME}/tmp", py!"/home/u/tmp", .two (.two (by decide) (by decide)) plainWord plainWord,
      (expands_iff _ _ _).2 (by decide +kernel), .set⟩ (.write ⟨by decide, by decide, by decide⟩ (by decide) (set _ _ _)) ?_
  exact .done

/-- C78, the script. -/
example : (Life.script exampleSys exampleSettings 9 files py!"MAIN" false true true py!"bash" life).1 =
    .ok (scriptText exampleSys py!"bash" false true (some [py!"envvar_op prepend \"PATH\" \"/opt/bin\"", py!"module load gcc/12",
      py!"envvar_op set \"TMP\" \"${HOME}/tmp\""])) :=
  (C78_script (prepared py!"MAIN") (by decide +kernel) (by decide +kernel) (by decide) planned rfl (.inl rfl)
    (.cons (.shEnvvar (.two (op := py!"prepend") (by decide) (by decide))) (.cons (.shModule (.loadVersion (by decide)))
      (.cons (.shEnvvar (.two (op := py!"set") (by decide) (by decide))) .nil))) false true).1

/-- C78, a section that uses a section which is not there, and one with an operation without a name. -/
example : (Life.apply exampleSys exampleSettings 9 files py!"BAD" life).1 = .exc .keyError ∧
    (Life.apply exampleSys exampleSettings 9 files py!"NAMELESS" life).1 = .exc .indexError ∧
    (Life.apply exampleSys exampleSettings 9 files py!"NAMELESS" life).2.environ = exampleEnviron := by
  have h1 := C78_stuck (sys := exampleSys) (n := 9) (prepared py!"BAD") (by decide +kernel) (by decide +kernel) (by decide) noHooks body
    (.inl ⟨by decide +kernel, rfl⟩) .nil (e := .keyError)
    (.later (own (w := py!"envvar-set") (ps := [py!"TMP"]) (shown (x := py!"1") (u := some py!"1") (by decide +kernel)) .nil (by decide +kernel))
      (.kept (.envvar (op := py!"envvar_set") (n := py!"TMP") (ps := []) (operates (w := py!"envvar-set")) (by decide +kernel) (by decide)) (by simp) .nil)
      (.missing (t := py!"NOWHERE") (by decide +kernel) (words (ws := [py!"use", py!"NOWHERE"])) .none (by decide) (by
        rintro os (⟨h, _⟩ | ⟨_, own, h, _⟩)
        · revert h; decide +kernel
        · have : py!"NOWHERE" ∈ Dict.keys (together [doc]).sections := List.mem_map.2 ⟨_, h, rfl⟩
          revert this; decide +kernel))) rfl
  have h2 := C78_stuck (sys := exampleSys) (n := 9) (prepared py!"NAMELESS") (by decide +kernel) (by decide +kernel) (by decide) noHooks body
    (.inl ⟨by decide +kernel, rfl⟩) .nil (e := .indexError)
    (.later (ws := [(py!"envvar-prepend PATH", some py!"/opt/bin"), (py!"envvar-set CC", some py!"gcc"), (py!"module-load gcc", some py!"12")])
      (l := [.envvar py!"envvar_prepend" py!"PATH" (some py!"/opt/bin"), .envvar py!"envvar_set" py!"CC" (some py!"gcc"),
        .module py!"module_load" (some py!"gcc") (some py!"12")])
      (.use (by decide +kernel) (words (ws := [py!"use", py!"TOOLS"])) .none (by decide) trivial body tools .nil)
      (.kept (.envvar (ps := []) (operates (w := py!"envvar-prepend")) (by decide +kernel) (by decide))
        (by
          simp only [List.mem_cons, List.not_mem_nil, or_false, forall_eq_or_imp, forall_eq]
          exact ⟨noDrop (w := py!"envvar-set") (ps := [py!"CC"]) (by decide +kernel),
            noDrop (w := py!"module-load") (ps := [py!"gcc"]) (by decide +kernel)⟩)
        (.kept (.envvar (ps := []) (operates (w := py!"envvar-set")) (by decide +kernel) (by decide))
          (by
            simp only [List.mem_cons, List.not_mem_nil, or_false, forall_eq]
            exact noDrop (w := py!"module-load") (ps := [py!"gcc"]) (by decide +kernel))
          (.kept (.module (ps := [py!"gcc"]) (operates (w := py!"module-load")) (by decide +kernel)) (by simp) .nil)))
      (.nameless (by decide +kernel) .none ⟨py!"envvar_unset", by decide +kernel, operates (w := py!"envvar-unset")⟩)) rfl
  exact ⟨h1.1, h2.1, h2.2.1⟩

end JourneyExample
end CPE.Props
