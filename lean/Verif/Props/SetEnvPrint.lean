import Verif.Proofs.SetEnvPrint
import Verif.Props.Apply
/-
C68: the listing of the actions of a section. C69: the listing of the environment variables (wip/setenvironment).
-/
namespace CPE.Props
open CPE.Spec CPE.SetEnv CPE.SetEnv.Spec

variable {cfg : Cfg} {st : Settings} {n : Nat} {s : Str} {repr : Action → Str}

/-! ### C68 -/

/-- C68: the listing of a list of actions exists unless an action lacks what it reads, and there is only one. -/
theorem C68_listing_unique {l : List Action} (h : ∀ a ∈ l, ¬ Lacks a) :
    ∃ t, Listing repr l t ∧ ∀ t', Listing repr l t' → t' = t := by
  have hw := opWidth_wide l
  rcases rows_or_lacks repr hw.2.1 with ⟨t, ht⟩ | ⟨l₁, a, l₂, _, _, rfl, _, _, ha⟩
  · refine ⟨_, ⟨_, t, hw, ht, rfl⟩, ?_⟩
    rintro t' ⟨w', t'', hw', ht', rfl⟩
    cases wide_det hw hw'
    rw [rows_det ht ht']
  · exact absurd ha (h a (by simp))

/-- C68: what is said about an action is determined by it, and no action that a file asks for lacks anything or is
unknown to the listing. -/
theorem C68_shown {cs : List HCall} {l : List Action} (h : ActionList cs l) {a : Action} (ha : a ∈ l) :
    opOf a ∈ listedOps ∧ ¬ Lacks a ∧ ∃ t, Shown repr a t ∧ ∀ t', Shown repr a t' → t' = t := by
  obtain ⟨h1, h2⟩ := actionList_shown h a ha
  rcases shown_or_lacks repr a with ⟨t, ht⟩ | hl
  · exact ⟨h2, h1, t, ht, fun _ h' => shown_det h' ht⟩
  · exact absurd hl h1

theorem prettyActions_lookup (E : Env Shared Actions) (c : Console) {d : Dict Str (Option Str)}
    {o₁ : Obj Shared Actions} (hg : edGetItem E n s c.st.obj = (.ok d, o₁)) {l : List Action}
    (hl : Dict.get? o₁.self s = some l) :
    prettyActions repr E n s c =
      printRows repr (opWidth l) l { st := { c.st with obj := o₁ }, stdout := c.stdout ++ heading } := by
  unfold prettyActions
  have h1 : onState (onObj (edGetItem E n s)) c = (.ok d, { c with st := { c.st with obj := o₁ } }) := by
    unfold onState onObj
    rw [hg]
  rw [M.bind_ok h1]
  have h2 : onState (actionsOf s) { c with st := { c.st with obj := o₁ } } =
      (.ok l, { c with st := { c.st with obj := o₁ } }) := by
    unfold onState actionsOf
    rw [M.read_bind, hl]
    rfl
  rw [M.bind_ok h2, print_bind, print_bind, List.append_assoc]
  rfl

/-- C68: `pretty_print_actions(s)` looks the section up and prints the listing of the actions in its list: a heading
and one line per action, in order. Nothing changes but what the look-up changes. -/
theorem C68_listing (E : Env Shared Actions) (c : Console) {d : Dict Str (Option Str)} {o₁ : Obj Shared Actions}
    (hg : edGetItem E n s c.st.obj = (.ok d, o₁)) {l : List Action} (hl : Dict.get? o₁.self s = some l) {t : Str}
    (ht : Listing repr l t) :
    prettyActions repr E n s c = (.ok (), { st := { c.st with obj := o₁ }, stdout := c.stdout ++ t }) := by
  obtain ⟨w, rows, hw, hr, rfl⟩ := ht
  cases wide_det hw (opWidth_wide l)
  rw [prettyActions_lookup E c hg hl, printRows_rows hr, List.append_assoc]

/-- C68: the exception of the look-up is passed on, and nothing is printed. -/
theorem C68_lookup_raises (E : Env Shared Actions) (c : Console) {e : PyExc} {o₁ : Obj Shared Actions}
    (hg : edGetItem E n s c.st.obj = (.exc e, o₁)) :
    prettyActions repr E n s c = (.exc e, { st := { c.st with obj := o₁ }, stdout := c.stdout }) := by
  unfold prettyActions
  have h1 : onState (onObj (edGetItem E n s)) c = (.exc e, { c with st := { c.st with obj := o₁ } }) := by
    unfold onState onObj
    rw [hg]
  rw [M.bind_exc h1]

/-- C68: if the section has no list, KeyError is raised and nothing is printed. -/
theorem C68_no_list (E : Env Shared Actions) (c : Console) {d : Dict Str (Option Str)} {o₁ : Obj Shared Actions}
    (hg : edGetItem E n s c.st.obj = (.ok d, o₁)) (hl : Dict.get? o₁.self s = none) :
    prettyActions repr E n s c = (.exc .keyError, { st := { c.st with obj := o₁ }, stdout := c.stdout }) := by
  unfold prettyActions
  have h1 : onState (onObj (edGetItem E n s)) c = (.ok d, { c with st := { c.st with obj := o₁ } }) := by
    unfold onState onObj
    rw [hg]
  rw [M.bind_ok h1]
  have h2 : onState (actionsOf s) { c with st := { c.st with obj := o₁ } } =
      (.exc .keyError, { c with st := { c.st with obj := o₁ } }) := by
    unfold onState actionsOf
    rw [M.read_bind, hl]
    rfl
  rw [M.bind_exc h2]

/-- C68: in a list that the client has made, an action may lack what the listing reads: KeyError, after the lines of
the actions before it and the beginning of its own. -/
theorem C68_lacks (E : Env Shared Actions) (c : Console) {d : Dict Str (Option Str)} {o₁ : Obj Shared Actions}
    (hg : edGetItem E n s c.st.obj = (.ok d, o₁)) {l₁ l₂ : List Action} {a : Action}
    (hl : Dict.get? o₁.self s = some (l₁ ++ a :: l₂)) (ha : Lacks a) {w : Nat} (hw : Wide (l₁ ++ a :: l₂) w)
    {rows lab : Str} (hr : Rows repr w l₁ rows) (hlab : Label w a lab) :
    prettyActions repr E n s c =
      (.exc .keyError, { st := { c.st with obj := o₁ }, stdout := c.stdout ++ heading ++ rows ++ lab }) := by
  cases wide_det hw (opWidth_wide _)
  rw [prettyActions_lookup E c hg hl, printRows_lacks hr hlab ha]

/-- A successful look-up is repeated without effect. -/
theorem getItem_again (E : Env Shared Actions) {o o₁ : Obj Shared Actions} {d : Dict Str (Option Str)}
    (hg : edGetItem E n s o = (.ok d, o₁)) : edGetItem E n s o₁ = (.ok d, o₁) := by
  change edOptions E n s o = _ at hg
  change edOptions E n s o₁ = _
  cases hf : E.cfg.hasSection s with
  | false =>
    rw [edOptions_missing hf] at hg
    simp only [Prod.mk.injEq] at hg
    obtain ⟨h1, rfl⟩ := hg
    rw [edOptions_missing hf, h1]
  | true =>
    rw [edOptions_apply hf, edGet_apply] at hg
    have hm := parseOwner_marks E n s false o
    cases hp : parseOwner E n s false o with
    | mk x o' =>
      rw [hp] at hg hm
      cases x with
      | ok _ =>
        simp only [Prod.mk.injEq] at hg
        obtain ⟨h1, rfl⟩ := hg
        rw [edOptions_checked hm, h1]
      | exc e => cases hg
      | diverge => cases hg

/-- C68: the listing shows what `apply` and the scripts do: if it is printed for the list `l`, then `apply` right
afterwards performs the actions of `l` exactly as `apply` instead of it would have, and a script generated right
afterwards has the commands of `l`. -/
theorem C68_apply_and_script (sys : Sys) (E : Env Shared Actions) (c c' : Console)
    (h : prettyActions repr E n s c = (.ok (), c')) :
    ∃ l t, Dict.get? c'.st.obj.self s = some l ∧ Listing repr l t ∧ c'.stdout = c.stdout ++ t ∧
      SetEnv.apply sys E n s c'.st = SetEnv.apply sys E n s c.st ∧
      ∀ interp hdr sheb ls, interp = py!"bash" ∨ interp = py!"python" → CommandLines interp l ls →
        generateScript sys E n s hdr true sheb interp c'.st = (.ok (scriptText sys interp hdr sheb (some ls)), c'.st) := by
  cases hg : edGetItem E n s c.st.obj with
  | mk x o₁ =>
    cases x with
    | exc e => rw [C68_lookup_raises E c hg] at h; cases h
    | diverge =>
      unfold prettyActions at h
      have h1 : onState (onObj (edGetItem E n s)) c = (.diverge, { c with st := { c.st with obj := o₁ } }) := by
        unfold onState onObj
        rw [hg]
      rw [M.bind_def, h1] at h
      cases h
    | ok d =>
      cases hl : Dict.get? o₁.self s with
      | none => rw [C68_no_list E c hg hl] at h; cases h
      | some l =>
        have hw := opWidth_wide l
        rcases rows_or_lacks repr hw.2.1 with ⟨rows, hr⟩ | ⟨l₁, a, l₂, rows, lab, rfl, hr, hlab, ha⟩
        · have ht : Listing repr l _ := ⟨_, rows, hw, hr, rfl⟩
          rw [C68_listing E c hg hl ht] at h
          cases h
          refine ⟨l, _, hl, ht, rfl, ?_, ?_⟩
          · unfold SetEnv.apply
            have e1 : onObj (ignoreKeyError (edGetItem E n s)) c.st = (.ok (), { c.st with obj := o₁ }) := by
              unfold onObj ignoreKeyError
              rw [hg]
            have e2 : onObj (ignoreKeyError (edGetItem E n s)) { c.st with obj := o₁ } =
                (.ok (), { c.st with obj := o₁ }) := by
              unfold onObj ignoreKeyError
              rw [getItem_again E hg]
            rw [M.bind_ok e1, M.bind_ok e2]
          · intro interp hdr sheb ls hi hls
            exact C49_text sys E hi (.inl ⟨by simp [hl], rfl⟩) hl hls
        · rw [C68_lacks E c hg hl ha hw hr hlab] at h
          cases h

/-- C68 over histories: after any history of an object on any environment, `pretty_print_actions(s)` either prints the
listing of the list that the file gives section `s` (see C47), or raises and prints nothing. It never touches the
environment or a file. -/
theorem C68_history (sys : Sys) (hn : NoHookOptions (env cfg st)) (ops : List Op) (environ : Environ)
    (files : Dict Str Str) (c : Console)
    (hc : c.st = Op.run sys (env cfg st) n ops (State.fresh (env cfg st) environ files)) :
    ((∃ init cs l t, HandledOptions (env cfg st) init s cs ∧ ActionList cs l ∧
        (init = true ∨ .ed (.parseSection s false true) ∈ ops) ∧ Listing repr l t ∧
        (prettyActions repr (env cfg st) n s c).1 = .ok () ∧
        (prettyActions repr (env cfg st) n s c).2.stdout = c.stdout ++ t) ∨
      (prettyActions repr (env cfg st) n s c).1 ≠ .ok () ∧
        (prettyActions repr (env cfg st) n s c).2.stdout = c.stdout) ∧
    (prettyActions repr (env cfg st) n s c).2.st.environ = c.st.environ ∧
    (prettyActions repr (env cfg st) n s c).2.st.files = c.st.files := by
  cases hg : edGetItem (env cfg st) n s c.st.obj with
  | mk x o₁ =>
    cases x with
    | exc e => rw [C68_lookup_raises _ c hg]; exact ⟨.inr ⟨by simp, rfl⟩, rfl, rfl⟩
    | diverge =>
      unfold prettyActions
      have h1 : onState (onObj (edGetItem (env cfg st) n s)) c =
          (.diverge, { c with st := { c.st with obj := o₁ } }) := by
        unfold onState onObj
        rw [hg]
      rw [M.bind_def, h1]
      exact ⟨.inr ⟨by simp, rfl⟩, rfl, rfl⟩
    | ok d =>
      cases hl : Dict.get? o₁.self s with
      | none => rw [C68_no_list _ c hg hl]; exact ⟨.inr ⟨by simp, rfl⟩, rfl, rfl⟩
      | some l =>
        have hrun : Dict.get? (Op.run sys (env cfg st) n (ops ++ [.ed (.getItem s)])
            (State.fresh (env cfg st) environ files)).obj.self s = some l := by
          have happ : ∀ (a b : List Op) (S0 : State), Op.run sys (env cfg st) n (a ++ b) S0 =
              Op.run sys (env cfg st) n b (Op.run sys (env cfg st) n a S0) := by
            intro a
            induction a with
            | nil => intros; rfl
            | cons op a ih => intro b S0; exact ih b _
          rw [happ, ← hc]
          show Dict.get? ((Op.ed (.getItem s)).exec sys (env cfg st) n c.st).2.obj.self s = _
          rw [← hl]
          congr 1
          show ((onObj (edGetItem (env cfg st) n s >>= fun r => pure (.opts r)) >>= fun v => pure (Val.ed v)) c.st).2.obj.self = _
          rw [M.bind_def]
          unfold onObj
          rw [M.bind_def, hg]
          rfl
        obtain ⟨init, cs, h1, h2, h3⟩ := C47_history sys hn _ environ files hrun
        obtain ⟨t, ht, _⟩ := C68_listing_unique (repr := repr) fun a ha => (actionList_shown h2 a ha).1
        rw [C68_listing _ c hg hl ht]
        refine ⟨.inl ⟨init, cs, l, t, h1, h2, ?_, ht, rfl, rfl⟩, rfl, rfl⟩
        rcases h3 with h3 | h3
        · exact .inl h3
        · rcases List.mem_append.1 h3 with h3 | h3
          · exact .inr h3
          · cases List.mem_singleton.1 h3

/-- The listing of MAIN in the example of C47. -/
example : (prettyActions (fun _ => []) (env exampleCfg exampleSettings) 9 py!"MAIN"
      ⟨State.fresh (env exampleCfg exampleSettings) exampleEnviron [], py!"$ "⟩).1 = .ok () ∧
    (prettyActions (fun _ => []) (env exampleCfg exampleSettings) 9 py!"MAIN"
      ⟨State.fresh (env exampleCfg exampleSettings) exampleEnviron [], py!"$ "⟩).2.stdout =
      py!"$ Actions\n=======\n--> envvar_set     : WHO=\"me\"\n--> module_load    : gcc/4.8\n--> envvar_unset   : WHO\n--> envvar_append  : PATH=\"${PATH}:${WHO}/bin\"\n--> module_swap    : intel intel/19\n" := by
  decide +kernel

/-- The hypotheses of C68_lacks: an action on a variable with an operation for modules, behind a long one. -/
example : Lacks (.envvar py!"module_load" py!"A" none) ∧
    Wide [.envvar py!"envvar_remove_path_entry" py!"P" (some py!"/x"), .envvar py!"module_load" py!"A" none] 24 ∧
    Label 24 (.envvar py!"module_load" py!"A" none) py!"--> module_load              : " := by
  refine ⟨.module (by decide), ⟨by decide, by decide, .inr ⟨_, List.mem_cons_self, by decide⟩⟩,
    label_iff.2 ⟨by decide, by decide⟩⟩

/-! ### C69 -/

theorem prettyEnvvars_eq (filter : FilterArg) (hf : filter ≠ .other) (only : Bool) (c : Console) :
    prettyEnvvars filter (some only) c =
      (printVars filter only c.st.environ >>= fun _ => pure 0 : M Console Int)
        { c with stdout := c.stdout ++ varBanner } := by
  rw [← varsBanner_eq]
  cases filter with
  | other => exact absurd rfl hf
  | none => rfl
  | list fs => rfl

/-- C69: `pretty_print_envvars(filter, only)` prints the banner and then, in the order of the environment, what the
filter lets it print about each variable; it returns 0 and changes nothing. -/
theorem C69_lines (filter : Option (List Str)) (only : Bool) (c : Console) :
    ∃ t, VarLines filter only c.st.environ t ∧
      prettyEnvvars (filterArg filter) (some only) c = (.ok 0, { c with stdout := c.stdout ++ varBanner ++ t }) := by
  obtain ⟨t, ht⟩ := varLines_exists filter only c.st.environ
  refine ⟨t, ht, ?_⟩
  rw [prettyEnvvars_eq _ (by cases filter <;> simp [filterArg]), M.bind_ok (printVars_lines ht _)]
  rfl

theorem varLine_det {filter : Option (List Str)} {only : Bool} {k v t t' : Str} (h : VarLine filter only k v t)
    (h' : VarLine filter only k v t') : t = t' := by
  cases h <;> cases h' <;> first | rfl | contradiction

theorem varLines_det {filter : Option (List Str)} {only : Bool} {l : List (Str × Str)} {t t' : Str}
    (h : VarLines filter only l t) (h' : VarLines filter only l t') : t = t' := by
  induction h generalizing t' with
  | nil => cases h'; rfl
  | cons h _ ih => cases h' with | cons h1 h2 => rw [varLine_det h h1, ih h2]

/-- C69: the lines are determined by the filter and the environment. -/
theorem C69_unique {filter : Option (List Str)} {only : Bool} {l : List (Str × Str)} {t t' : Str}
    (h : VarLines filter only l t) (h' : VarLines filter only l t') : t = t' := varLines_det h h'

/-- Two environments with the same names in the same order, that agree on the values of the variables that the filter
mentions. -/
inductive SameShown (fs : List Str) : List (Str × Str) → List (Str × Str) → Prop
  | nil : SameShown fs [] []
  | cons {k v v' l l'} : (Mentions fs k → v = v') → SameShown fs l l' → SameShown fs ((k, v) :: l) ((k, v') :: l')

/-- C69: with a filter, the values of variables that it does not mention never appear: they could be anything without
a difference in what is printed. -/
theorem C69_values_hidden {fs : List Str} {only : Bool} (c : Console) {e e' : Environ} (h : SameShown fs e e') :
    (prettyEnvvars (filterArg (some fs)) (some only) { c with st := { c.st with environ := e } }).2.stdout =
      (prettyEnvvars (filterArg (some fs)) (some only) { c with st := { c.st with environ := e' } }).2.stdout := by
  obtain ⟨t, ht, h1⟩ := C69_lines (some fs) only { c with st := { c.st with environ := e } }
  obtain ⟨t', ht', h2⟩ := C69_lines (some fs) only { c with st := { c.st with environ := e' } }
  rw [h1, h2]
  have : t = t' := by
    clear h1 h2
    dsimp only at ht ht'
    induction h generalizing t t' with
    | nil => cases ht; cases ht'; rfl
    | @cons k _ _ _ _ hv _ ih =>
      cases ht with
      | cons hl hs =>
        cases ht' with
        | cons hl' hs' =>
          rw [ih _ hs _ hs']
          by_cases hm : Mentions fs k
          · cases hv hm
            rw [varLine_det hl hl']
          · cases hl <;> cases hl' <;> first | rfl | contradiction
  rw [this]

/-- C69: if only mentioned variables are asked for, the others leave no trace, not even their names. -/
theorem C69_only_mentioned (fs : List Str) (c : Console) {e e' : Environ}
    (h : e.filter (fun kv => @decide (Mentions fs kv.1) (Classical.propDecidable _)) =
      e'.filter (fun kv => @decide (Mentions fs kv.1) (Classical.propDecidable _))) :
    (prettyEnvvars (filterArg (some fs)) (some true) { c with st := { c.st with environ := e } }).2.stdout =
      (prettyEnvvars (filterArg (some fs)) (some true) { c with st := { c.st with environ := e' } }).2.stdout := by
  obtain ⟨t, ht, h1⟩ := C69_lines (some fs) true { c with st := { c.st with environ := e } }
  obtain ⟨t', ht', h2⟩ := C69_lines (some fs) true { c with st := { c.st with environ := e' } }
  rw [h1, h2]
  have key : ∀ {l : List (Str × Str)} {t : Str}, VarLines (some fs) true l t →
      VarLines (some fs) true (l.filter (fun kv => @decide (Mentions fs kv.1) (Classical.propDecidable _))) t := by
    intro l t h
    induction h with
    | nil => exact .nil
    | @cons k v rest t ts hl _ ih =>
      by_cases hm : Mentions fs k
      · rw [List.filter_cons_of_pos (by simpa using hm)]
        exact .cons hl ih
      · rw [List.filter_cons_of_neg (by simpa using hm)]
        cases hl with
        | hit h => exact absurd h hm
        | hidden _ => exact ih
  have := varLines_det (h ▸ key ht) (key ht')
  rw [this]

/-- C69: an argument of a wrong type is a TypeError, and nothing is printed. -/
theorem C69_bad_arguments (filter : FilterArg) (only : Option Bool) (h : filter = .other ∨ only = none) (c : Console) :
    prettyEnvvars filter only c = (.exc .typeError, c) := by
  rcases h with rfl | rfl
  · rfl
  · cases filter <;> rfl

/-- C69: a filter entry that is not a text is a TypeError as soon as a variable comes that no entry before it
mentions; the variables before are listed, with their values. -/
theorem C69_bad_entry {fs : List Str} {rest : List (Option Str)} {only : Bool} (c : Console) {pre post : List (Str × Str)}
    {k v : Str} (hc : c.st.environ = pre ++ (k, v) :: post) (hpre : ∀ kv ∈ pre, Mentions fs kv.1)
    (hk : ¬ Mentions fs k) {t : Str} (ht : VarLines (some fs) only pre t) :
    prettyEnvvars (.list (fs.map some ++ none :: rest)) (some only) c =
      (.exc .typeError, { c with stdout := c.stdout ++ varBanner ++ t }) := by
  have hhit : ∀ k, (Mentions fs k → filterHits (fs.map some ++ none :: rest) k = .ok true) ∧
      (¬ Mentions fs k → filterHits (fs.map some ++ none :: rest) k = .error .typeError) := by
    intro k
    clear hpre hk ht
    induction fs with
    | nil => exact ⟨fun ⟨f, hf, _⟩ => (by cases hf), fun _ => rfl⟩
    | cons f fs ih =>
      rw [List.map_cons, List.cons_append, filterHits]
      by_cases h : isSubstr f k = true
      · rw [if_pos h]
        exact ⟨fun _ => rfl, fun hn => absurd ⟨f, List.mem_cons_self, (isSubstr_iff f k).1 h⟩ hn⟩
      · rw [if_neg h]
        refine ⟨fun ⟨g, hg, hx⟩ => ?_, fun hn => ih.2 fun ⟨g, hg, hx⟩ => hn ⟨g, List.mem_cons_of_mem _ hg, hx⟩⟩
        rcases List.mem_cons.1 hg with rfl | hg
        · exact absurd ((isSubstr_iff g k).2 hx) h
        · exact ih.1 ⟨g, hg, hx⟩
  have key : ∀ c : Console, printVars (.list (fs.map some ++ none :: rest)) only (pre ++ (k, v) :: post) c =
      (.exc .typeError, { c with stdout := c.stdout ++ t }) := by
    clear hc
    induction ht with
    | nil =>
      intro c
      rw [List.nil_append]
      unfold printVars
      dsimp only
      rw [(hhit k).2 hk, ofExcept_exc_bind]
      simp
    | @cons k' v' l t ts hl _ ih =>
      intro c
      have hm := hpre (k', v') List.mem_cons_self
      rw [List.cons_append]
      unfold printVars
      dsimp only
      rw [(hhit k').1 hm, ofExcept_bind, print_bind, ih fun kv h => hpre kv (List.mem_cons_of_mem _ h)]
      cases hl with
      | hit _ => simp [varText]
      | name h => exact absurd hm h
      | hidden h => exact absurd hm h
  rw [prettyEnvvars_eq _ (by simp), hc, M.bind_exc (key _)]

/-- A filter that mentions PATH: only that value is printed. -/
example : (prettyEnvvars (filterArg (some [py!"AT"])) (some false)
      ⟨⟨Obj.fresh (env exampleCfg exampleSettings) [], exampleEnviron, []⟩, []⟩).2.stdout =
    varBanner ++ py!"[envvar]: HOME\n[envvar]: PATH = /bin:/opt/x:/usr/bin:/opt/x\n[envvar]: EMPTY\n" := by
  decide +kernel

/-- The hypotheses of C69_values_hidden and C69_only_mentioned: another HOME; no HOME. -/
example : SameShown [py!"AT"] exampleEnviron
      [(py!"HOME", py!"secret"), (py!"PATH", py!"/bin:/opt/x:/usr/bin:/opt/x"), (py!"EMPTY", py!"no")] := by
  have h : ∀ {k : Str}, isSubstr py!"AT" k = false → ¬ Mentions [py!"AT"] k := by
    rintro k hk ⟨f, hf, hx⟩
    cases List.mem_singleton.1 hf
    rw [(isSubstr_iff _ _).2 hx] at hk
    cases hk
  exact .cons (fun hm => absurd hm (h (by decide))) (.cons (fun _ => rfl) (.cons (fun hm => absurd hm (h (by decide))) .nil))

/-- The hypotheses of C69_bad_entry. -/
example : Mentions [py!"HO"] py!"HOME" ∧ ¬ Mentions [py!"HO"] py!"PATH" := by
  refine ⟨⟨_, List.mem_singleton.2 rfl, [], py!"ME", rfl⟩, ?_⟩
  rintro ⟨f, hf, hx⟩
  cases List.mem_singleton.1 hf
  have := (isSubstr_iff _ _).2 hx
  revert this
  decide

end CPE.Props
