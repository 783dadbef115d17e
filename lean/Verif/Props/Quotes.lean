import Verif.Proofs.Quotes
import Verif.Proofs.QuotesOnly
import Verif.Props.Literal
import Verif.Props.BashScript
/-
C77: backslashes in the values of generated Bash scripts, and where Bash and Python agree on them (wip/setenvironment).
-/
namespace CPE.Props
open CPE.Spec CPE.SetEnv CPE.SetEnv.Spec

variable {sys : Sys} {tools : Bash.Tools} {env : Environ} {n : Nat} {s : Str}

/-! ### Texts -/

/-- C77: Bash reads a text in one way. -/
theorem C77_one_reading {w x x' : Str} (h : Quoted env w x) (h' : Quoted env w x') : x = x' := by
  have := (Bash.expandGo_of_quoted h).symm.trans (Bash.expandGo_of_quoted h')
  exact Option.some.inj this

/-- C77: Bash and Python read a text without `$` and backquotes as the same if and only if no backslash in it has a
meaning in one of the languages only. -/
theorem C77_same_iff {w x y : Str} (hb : Quoted env w x) (hp : Literal w y) (hd : '$' ∉ w) (hq : '`' ∉ w) :
    x = y ↔ Neutral w x := by
  constructor
  · rintro rfl
    exact (Bash.neutral_of_length hp hb hd hq).2 rfl
  · intro h
    exact literal_det _ _ _ (Bash.neutral_literal h) hp

/-- C77: such a text is read as the same by both, in every environment. -/
theorem C77_neutral (env : Environ) {w x : Str} (h : Neutral w x) : Quoted env w x ∧ Literal w x :=
  ⟨Bash.neutral_quoted env h, Bash.neutral_literal h⟩

/-! ### Actions -/

/-- C77: a Bash command does with the text that Bash reads what Python does with a text that expands to it. -/
theorem C77_command {op v w x y : Str} (hop : op ∈ opNames) (hv : VarName v) (hq : Quoted env w x) (hy : Expands env y x)
    (hx : Char.ofNat 0 ∉ x) (hp : PortableOp sys tools env op v x) (he : ∀ u, Dict.get? env v = some u → Char.ofNat 0 ∉ u) :
    EndAlike (Bash.exec tools (bashCommand op v w) env) (SetEnv.envvarOp sys op v y true env) := by
  rw [bashCommand_eq]
  exact Bash.alike_read hop hv (Bash.readsAs_of_quoted hq) hy hx hp he

/-- C77: the Bash command that sets a variable sets it to the text that Bash reads. -/
theorem C77_set {v w x : Str} (hv : VarName v) (hq : Quoted env w x) :
    ∃ env', Bash.exec tools (bashCommand py!"set" v w) env = (.ok (), env') ∧ Becomes env v (some x) env' := by
  refine ⟨Dict.set env v x, ?_, Dict.get?_set_self _ _ _, fun m hm => Dict.get?_set_ne _ _ hm⟩
  rw [bashCommand_eq, Bash.exec_set hv (Bash.readsAs_of_quoted hq)]

/-- C77: there is no other reading: if the Bash command that sets a variable to a text in double quotes is carried out, the
text is one of those that `Quoted` describes, and the variable gets what it says. In particular, references other than
`$NAME` and `${NAME}` are not taken for ordinary text. -/
theorem C77_set_only {v w : Str} {env' : Environ} (hv : VarName v) (hw : Enclosed w)
    (h : Bash.exec tools (bashCommand py!"set" v w) env = (.ok (), env')) :
    ∃ x, Quoted env w x ∧ Becomes env v (some x) env' := by
  cases hx : Bash.expandGo env 0 w with
  | none =>
    rw [bashCommand_eq, Bash.exec_unread (op := py!"set") (by decide) hv.1.2 (Bash.Enclosed.passes hw).closed hx] at h
    exact absurd (congrArg Prod.fst h) (by simp [Bash.notModelled, M.raise])
  | some x =>
    have hq := Bash.quoted_of_expandGo w.length (Nat.le_refl _) hw hx
    refine ⟨x, hq, ?_⟩
    obtain ⟨e, he, hb⟩ := C77_set (tools := tools) hv hq
    rw [he] at h
    cases h
    exact hb

/-- C77: a text with a command substitution, with arithmetic, or with a reference to a parameter of the shell has no reading. -/
theorem C77_no_reading {c : Char} (hc : c ∈ py!"$?!-*@#([") (a b : Str) (ha : '$' ∉ a) (ha' : '\\' ∉ a) (x : Str) :
    ¬ Quoted env (a ++ py!"$" ++ [c] ++ b) x := by
  intro h
  induction a generalizing x with
  | nil =>
    have h : Quoted env ('$' :: c :: b) x := h
    generalize hw : '$' :: c :: b = w at h
    cases h with
    | nil => cases hw
    | plain hp _ => cases hw; exact absurd hp (by decide)
    | braced _ _ =>
      simp only [List.cons_append, List.nil_append, List.cons.injEq] at hw
      rw [hw.2.1] at hc
      exact absurd hc (by decide)
    | @bare y s t hi _ _ =>
      obtain ⟨⟨d, y', rfl, _⟩, hy⟩ := hi
      simp only [List.cons_append, List.nil_append, List.cons.injEq] at hw
      have := hy d (.head _)
      rw [← hw.2.1] at this
      simp only [List.mem_cons, List.not_mem_nil, or_false] at hc
      rcases hc with rfl | rfl | rfl | rfl | rfl | rfl | rfl | rfl | rfl <;> exact absurd this (by decide)
    | lone hl _ =>
      cases hw
      have := (hl _ _ rfl).2
      simp only [List.mem_cons, List.not_mem_nil, or_false] at hc
      rcases hc with rfl | rfl | rfl | rfl | rfl | rfl | rfl | rfl | rfl <;> exact this (by decide)
    | dropped => cases hw
    | kept => cases hw
  | cons d a ih =>
    have hd : d ≠ '$' := by rintro rfl; exact ha (.head _)
    have hd' : d ≠ '\\' := by rintro rfl; exact ha' (.head _)
    generalize hw : d :: a ++ py!"$" ++ [c] ++ b = w at h
    cases h with
    | nil => cases hw
    | plain _ hq =>
      cases hw
      exact ih (fun hm => ha (.tail _ hm)) (fun hm => ha' (.tail _ hm)) _ hq
    | braced _ _ =>
      simp only [List.cons_append, List.cons.injEq] at hw
      exact hd hw.1
    | bare _ _ _ =>
      simp only [List.cons_append, List.cons.injEq] at hw
      exact hd hw.1
    | lone _ _ =>
      simp only [List.cons_append, List.cons.injEq] at hw
      exact hd hw.1
    | dropped _ _ =>
      simp only [List.cons_append, List.cons.injEq] at hw
      exact hd' hw.1
    | kept _ _ =>
      simp only [List.cons_append, List.cons.injEq] at hw
      exact hd' hw.1

/-- Non-vacuity: a text with an escaped quote and a reference, and its reading. -/
example : ∃ x, Quoted [(py!"HOME", py!"/home/me")] py!"say \\\"$HOME\\\"" x ∧
    Becomes [(py!"HOME", py!"/home/me")] py!"V" (some x) [(py!"HOME", py!"/home/me"), (py!"V", py!"say \"/home/me\"")] :=
  C77_set_only (tools := ⟨fun _ _ => none, fun _ e => e⟩) ⟨⟨⟨_, _, rfl, by decide⟩, by decide⟩, by decide⟩
    (.char (by decide) <| .char (by decide) <| .char (by decide) <| .char (by decide) <| .pair (by decide) <|
      .char (by decide) <| .char (by decide) <| .char (by decide) <| .char (by decide) <| .char (by decide) <|
      .pair (by decide) .nil) (by decide +kernel)

/-- Non-vacuity: the parenthesis of a command substitution. -/
example (x : Str) : ¬ Quoted [] py!"now $(date)" x := C77_no_reading (c := '(') (by decide) py!"now " py!"date)" (by decide) (by decide) x

theorem readable_of {w : Str} (h : ∀ c ∈ w, WordChar c ∨ c ∈ ['-', '+', '.', ',', ':', '/', '@', '%', '=']) : Readable w := by
  refine ⟨fun hc => ?_, fun hc => ?_, fun hc => ?_, fun hc => ?_, fun hc => ?_⟩ <;>
    (rcases h _ hc with h | h <;> exact absurd h (by decide))

theorem varName_literal {v : Str} (hv : VarName v) : Literal v v :=
  Readable.literal (readable_of fun c hc => .inl (hv.1.2 c hc))

/-- C77: a backslash that only Python gives a meaning to: the two ways to set a variable leave different values in it. -/
theorem C77_differs {a : Action} {l v w x y : Str} {m : M Environ Int} (hw : EnvvarWords a [py!"set", v, w])
    (hl : CommandLine py!"bash" a l) (hm : Performs sys a m) (hv : VarName v) (hb : Quoted env w x) (hp : Literal w y)
    (hd : '$' ∉ w) (hq : '`' ∉ w) (hy : '$' ∉ y) (h0 : Char.ofNat 0 ∉ y) (hn : ¬ Neutral w x) :
    ∃ eb ep, Bash.exec tools l env = (.ok (), eb) ∧ m env = (.ok 0, ep) ∧
      Dict.get? eb v = some x ∧ Dict.get? ep v = some y ∧ x ≠ y := by
  obtain ⟨d1, d2, d3, d4, d5⟩ := @words_det a
  have hne : x ≠ y := fun h => hn ((C77_same_iff hb hp hd hq).1 h)
  have e1 : l = bashCommand py!"set" v w := by
    cases hl with
    | shEnvvar h' => cases d1 _ _ hw h'; rw [bashCommand_eq]
    | shModule h' => exact (d3 _ _ hw h').elim
  have e2 : m = SetEnv.envvarOp sys py!"set" v y true := C75_performs_one sys hm (.envvar hw (varName_literal hv) hp)
  obtain ⟨eb, h1, h2⟩ := C77_set (tools := tools) hv hb
  subst e1 e2
  refine ⟨eb, Dict.set env v y, h1, ?_, h2.1, Dict.get?_set_self _ _ _, hne⟩
  unfold SetEnv.envvarOp
  rw [if_neg (by simp), M.read_bind]
  dsimp only
  rw [if_neg (c := y ≠ [] ∧ '$' ∈ y) (fun h => hy h.2), if_pos rfl, M.bind_def, Bash.envvarSet_ok hv.1 h0]
  rfl

/-- C77: a reference after a backslash: Bash keeps the reference as it is written and drops the backslash, Python keeps
the backslash and puts in the value. -/
theorem C77_escaped_reference {a : Action} {l v x u : Str} {m : M Environ Int} (hx : Identifier x)
    (hw : EnvvarWords a [py!"set", v, py!"\\$" ++ x]) (hl : CommandLine py!"bash" a l) (hm : Performs sys a m)
    (hv : VarName v) (hg : Dict.get? env x = some u) (h0 : Char.ofNat 0 ∉ u) :
    ∃ eb ep, Bash.exec tools l env = (.ok (), eb) ∧ m env = (.ok 0, ep) ∧
      Becomes env v (some (py!"$" ++ x)) eb ∧ Becomes env v (some (py!"\\" ++ u)) ep := by
  obtain ⟨d1, d2, d3, d4, d5⟩ := @words_det a
  have hlit : Literal (py!"\\$" ++ x) (py!"\\$" ++ x) := by
    refine Literal.cons (p := py!"\\$") (x := py!"\\$") (.unknown (by decide)) ?_
    exact Readable.literal (readable_of fun c hc => .inl (hx.2 c hc))
  have hquo : Quoted env (py!"\\$" ++ x) (py!"$" ++ x) :=
    .dropped (by decide) (Bash.quoted_of_means (Bash.means_self hx.2 env))
  have e1 : l = bashCommand py!"set" v (py!"\\$" ++ x) := by
    cases hl with
    | shEnvvar h' => cases d1 _ _ hw h'; rw [bashCommand_eq]
    | shModule h' => exact (d3 _ _ hw h').elim
  have e2 : m = SetEnv.envvarOp sys py!"set" v (py!"\\$" ++ x) true :=
    C75_performs_one sys hm (.envvar hw (varName_literal hv) hlit)
  obtain ⟨eb, h1, h2⟩ := C77_set (tools := tools) hv hquo
  subst e1 e2
  refine ⟨eb, Dict.set env v (py!"\\" ++ u), h1, ?_, h2, Dict.get?_set_self _ _ _, fun m hm => Dict.get?_set_ne _ _ hm⟩
  have hex : Expands env (py!"\\$" ++ x) (py!"\\" ++ u) := by
    have := Expands.bare (env := env) (Bash.identifier_ne_nil hx) hx.2 (s := []) (by simp) .nil
    rw [hg] at this
    have := Expands.plain (c := '\\') (by decide) this
    simpa using this
  unfold SetEnv.envvarOp
  rw [if_neg (by simp), M.read_bind]
  dsimp only
  rw [Bash.expanded hex, if_pos rfl, M.bind_def, Bash.envvarSet_ok hv.1 (by simp [h0])]
  rfl

/-! ### Scripts -/

theorem agreed_step {a : Action} {l : Str} {m : M Environ Int} (ha : Agreed sys tools env a)
    (hl : CommandLine py!"bash" a l) (hm : Performs sys a m) :
    EndAlike (Bash.exec tools l env) (m env) ∧ '\n' ∉ l ∧ ¬ (l = [] ∨ l.head? = some '#') := by
  obtain ⟨d1, d2, d3, d4, d5⟩ := @words_det a
  have hvar : ∀ {v : Str}, VarName v → '\n' ∉ v := fun hn h => absurd (hn.1.2 _ h) (by decide)
  have hopn : ∀ {op : Str}, op ∈ opNames → '\n' ∉ op := by
    intro op h hc
    exact absurd ((Bash.opName_bare h).2 _ hc) (by decide)
  cases ha with
  | @unset v hw hv =>
    have e2 : m = SetEnv.envvarOp sys py!"unset" v [] true := C75_performs_one sys hm (.unset hw (varName_literal hv))
    subst e2
    cases hl with
    | shModule h' => exact (d3 _ _ hw h').elim
    | shEnvvar h' =>
      cases d1 _ _ hw h'
      refine ⟨Bash.alike_unset hv, Bash.line_plain (by decide) (by decide) ?_⟩
      intro u hu
      rcases List.mem_cons.1 hu with rfl | hu
      · decide
      · simp only [List.map_cons, List.map_nil, List.mem_singleton] at hu
        subst hu
        simp [hvar hv]
  | @envvar op v w x y hw hv hq hp hy hpo h0 he =>
    have hop := Bash.envvarWords_op hw
    have e2 : m = SetEnv.envvarOp sys op v y true := C75_performs_one sys hm (.envvar hw (varName_literal hv) hp)
    subst e2
    cases hl with
    | shModule h' => exact (d3 _ _ hw h').elim
    | shEnvvar h' =>
      cases d1 _ _ hw h'
      refine ⟨Bash.alike_read hop hv (Bash.readsAs_of_quoted hq) hy h0 hpo he, Bash.line_plain (by decide) (by decide) ?_⟩
      have hwn := Bash.quoted_no_lineEnd hq
      intro u hu
      rcases List.mem_cons.1 hu with rfl | hu
      · exact hopn hop
      · simp only [List.map_cons, List.map_nil, List.mem_cons, List.not_mem_nil, or_false] at hu
        rcases hu with rfl | rfl
        · simp [hvar hv]
        · simp [hwn]
  | @module ws i env' hw hb hs ht =>
    have hlit : Literals ws ws := literals_of_readable fun w hw' => readable_of (hb w hw').2
    have e2 : m = sys.module ws := C75_performs_one sys hm (.module hw hlit)
    subst e2
    cases hl with
    | shEnvvar h' => exact (d3 _ _ h' hw).elim
    | shModule h' =>
      cases d2 _ _ hw h'
      refine ⟨?_, Bash.line_plain (by decide) (by decide) ?_⟩
      · rw [Bash.exec_module hb, hs, ht]
        exact ⟨rfl, .inl ⟨_, _, rfl, rfl⟩⟩
      · intro w hw' hc
        rcases (hb w hw').2 _ hc with h | h
        · exact absurd h (by decide)
        · exact absurd h (by decide)

theorem agreed_alike {l : List Action} {ls : List Str} {ms : List (M Environ Int)} (hl : CommandLines py!"bash" l ls)
    (hp : Performing sys l ms) {env : Environ} (hr : AgreedRun sys tools env l) : Bash.AlikeRun tools env ls ms := by
  induction hl generalizing ms env with
  | nil => cases hp; exact .nil
  | cons h1 _ ih =>
    cases hp with
    | cons hd hp =>
      cases hr with
      | cons hpa hd' hnext =>
        cases C75_performs_one sys hd hd'
        obtain ⟨e, hn, hh⟩ := agreed_step hpa h1 hd
        exact .cons e hn hh fun i env' hm => ih hp (hnext i env' hm)

/-- C77: the Bash script of a list of actions on which both languages agree ends like the actions performed by Python,
with the same variables. -/
theorem C77_script {l : List Action} {ls : List Str} {ms : List (M Environ Int)}
    (hl : CommandLines py!"bash" l ls) (hp : Performing sys l ms) (hr : AgreedRun sys tools env l) (sheb : Bool) :
    EndAlike (Bash.runScript tools (scriptText sys py!"bash" false sheb (some ls)) env) (runEach ms env) :=
  Bash.alike_lines (agreed_alike hl hp hr) sheb

/-- C77: and like the Python script, if Python can read the actions. -/
theorem C77_both_scripts {l : List Action} {bs ps : List Str} {ms : List (M Environ Int)}
    (hb : CommandLines py!"bash" l bs) (hps : CommandLines py!"python" l ps) (hp : Performing sys l ms)
    (hc : ∀ a ∈ l, Legible a) (hr : AgreedRun sys tools env l) (sheb sheb' : Bool) :
    EndAlike (Bash.runScript tools (scriptText sys py!"bash" false sheb (some bs)) env)
      (runScript sys (scriptText sys py!"python" false sheb' (some ps)) env) := by
  rw [C75_script sys hps hp hc sheb' env]
  exact C77_script hb hp hr sheb

/-- C77: if `apply(s)` succeeds and both languages agree on the actions of the section in the environment that `apply`
started from, then the Bash script that is then generated runs to its end, and leaves the environment that `apply` has
left. -/
theorem C77_same_as_apply (E : Env Shared Actions) (S : State) {r : Out (Dict Str (Option Str))}
    {o₁ : Obj Shared Actions} (hg : edGetItem E n s S.obj = (r, o₁)) (hx : (∃ v, r = .ok v) ∨ r = .exc .keyError)
    {l : List Action} (hl : Dict.get? o₁.self s = some l) {ms : List (M Environ Int)} (hp : Performing sys l ms) {i : Int}
    {S' : State} (ha : SetEnv.apply sys E n s S = (.ok i, S')) (hr : AgreedRun sys tools S.environ l) (sheb : Bool) :
    ∃ text, generateScript sys E n s false true sheb py!"bash" S' = (.ok text, S') ∧
      Bash.runScript tools text S.environ = (.ok (), S'.environ) := by
  rw [C75_apply sys E S hg hx hl hp] at ha
  have hall : runAll E ms 0 S.environ = (.ok i, S'.environ, (runAll E ms 0 S.environ).2.2) := by
    have h1 := congrArg Prod.fst ha
    have h2 := congrArg (fun p => p.2.environ) ha
    dsimp only at h1 h2
    rw [← h1, ← h2]
  have hself : S'.obj.self = o₁.self := (congrArg (fun p => p.2.obj.self) ha).symm
  have hrun := runEach_of_runAll E hall
  -- no action raised, so every action has a line
  have key : ∀ (l : List Action) (ms : List (M Environ Int)) (e e' : Environ), Performing sys l ms →
      runEach ms e = (.ok (), e') → ∃ ls, CommandLines py!"bash" l ls := by
    intro l ms e e' hp
    induction hp generalizing e with
    | nil => intro _; exact ⟨[], .nil⟩
    | @cons a m l ms h _ ih =>
      intro hr
      unfold runEach at hr
      have hm : ∃ r e1, m e = (.ok r, e1) ∧ runEach ms e1 = (.ok (), e') := by
        rcases hm : m e with ⟨r | r | _, e1⟩ <;> rw [hm] at hr
        · exact ⟨_, _, rfl, hr⟩
        · cases hr
        · cases hr
      obtain ⟨r, e1, hm, hr⟩ := hm
      obtain ⟨ls, i2⟩ := ih e1 hr
      have ha : ∃ x, CommandLine py!"bash" a x := by
        cases h with
        | unset h hn => exact ⟨_, .shEnvvar h⟩
        | envvar h hn hv => exact ⟨_, .shEnvvar h⟩
        | module h hx => exact ⟨_, .shModule h⟩
        | incomplete h => cases hm
        | erroneous h he => cases hm
      obtain ⟨x, h2⟩ := ha
      exact ⟨_, .cons h2 i2⟩
  obtain ⟨ls, hls⟩ := key l ms _ _ hp hrun
  have hl' : Dict.get? S'.obj.self s = some l := by rw [hself]; exact hl
  refine ⟨_, C49_text sys E (.inl rfl) (.inl ⟨by rw [hl']; simp, rfl⟩) hl' hls, ?_⟩
  obtain ⟨e1, e2⟩ := C77_script hls hp hr sheb
  rw [hrun] at e1 e2
  rcases e2 with ⟨u, v, e2, _⟩ | ⟨_, e2⟩
  · exact Prod.ext e2 e1
  · cases e2

/-! ### Examples -/

/-- A Windows path with its backslashes written twice, and a backslash that neither language gives a meaning to. -/
theorem example_neutral : Neutral py!"C:\\\\new\\d" py!"C:\\new\\d" :=
  .char (by decide) (.char (by decide) (.dropped (by decide) (.char (by decide) (.char (by decide) (.char (by decide)
    (.kept (by decide) (by decide) .nil))))))

/-- The same path with its backslashes written once, as Bash reads it. Python finds a line end in it (`example_literal`). -/
theorem example_quoted : Quoted env py!"C:\\new\\d" py!"C:\\new\\d" :=
  .plain (by decide) (.plain (by decide) (.kept (by decide) (.plain (by decide) (.plain (by decide) (.kept (by decide) .nil)))))

theorem example_not_neutral : ¬ Neutral py!"C:\\new\\d" py!"C:\\new\\d" := fun h =>
  absurd ((C77_same_iff (env := []) example_quoted example_literal (by decide) (by decide)).2 h) (by decide)

theorem dir_name : VarName py!"DIR" := exampleVar (by decide)

theorem dir_literal : Literal py!"DIR" py!"DIR" := varName_literal dir_name

example : ∃ eb ep, Bash.exec exampleTools py!"envvar_op set \"DIR\" \"C:\\new\\d\"" [] = (.ok (), eb) ∧
    SetEnv.envvarOp exampleSys py!"set" py!"DIR" py!"C:\new\\d" true [] = (.ok 0, ep) ∧
    Dict.get? eb py!"DIR" = some py!"C:\\new\\d" ∧ Dict.get? ep py!"DIR" = some py!"C:\new\\d" ∧
    py!"C:\\new\\d" ≠ py!"C:\new\\d" :=
  C77_differs (a := .envvar py!"envvar_set" py!"DIR" (some py!"C:\\new\\d"))
    (.two (op := py!"set") (by decide) (by decide)) (.shEnvvar (.two (op := py!"set") (by decide) (by decide)))
    (.envvar (.two (op := py!"set") (by decide) (by decide)) dir_literal example_literal) dir_name example_quoted example_literal
    (by decide) (by decide) (by decide) (by decide) example_not_neutral

/-- `\$HOME`. -/
example : ∃ eb ep, Bash.exec exampleTools py!"envvar_op set \"DIR\" \"\\$HOME\"" [(py!"HOME", py!"/h")] = (.ok (), eb) ∧
    SetEnv.envvarOp exampleSys py!"set" py!"DIR" py!"\\$HOME" true [(py!"HOME", py!"/h")] = (.ok 0, ep) ∧
    Becomes [(py!"HOME", py!"/h")] py!"DIR" (some (py!"$" ++ py!"HOME")) eb ∧
    Becomes [(py!"HOME", py!"/h")] py!"DIR" (some (py!"\\" ++ py!"/h")) ep :=
  C77_escaped_reference (a := .envvar py!"envvar_set" py!"DIR" (some py!"\\$HOME")) (x := py!"HOME")
    ((Bash.isIdent_iff _).1 (by decide)) (.two (op := py!"set") (by decide) (by decide))
    (.shEnvvar (.two (op := py!"set") (by decide) (by decide)))
    (.envvar (.two (op := py!"set") (by decide) (by decide)) dir_literal
      (Literal.cons (p := py!"\\$") (x := py!"\\$") (.unknown (by decide)) (C75_plain (by refine ⟨?_, ?_, ?_, ?_, ?_⟩ <;> decide))))
    dir_name rfl (by decide)

/-- Actions on which both languages agree although there are backslashes in them. -/
def slashActions : List Action :=
  [.envvar py!"envvar_set" py!"DIR" (some py!"C:\\\\new\\d"), .envvar py!"envvar_unset" py!"OLD" none,
   .envvar py!"envvar_append" py!"DIR" (some py!"C:\\\\new\\d"), .module py!"module_purge" none none]

theorem slash_literal : Literal py!"C:\\\\new\\d" py!"C:\\new\\d" := (C77_neutral [] example_neutral).2

theorem slash_performing : Performing exampleSys slashActions
    [envvarOp exampleSys py!"set" py!"DIR" py!"C:\\new\\d" true, envvarOp exampleSys py!"unset" py!"OLD" [] true,
      envvarOp exampleSys py!"append" py!"DIR" py!"C:\\new\\d" true, exampleSys.module [py!"purge"]] :=
  .cons (.envvar (.two (op := py!"set") (by decide) (by decide)) dir_literal slash_literal)
    (.cons (.unset .unset (varName_literal (exampleVar (by decide))))
      (.cons (.envvar (.two (op := py!"append") (by decide) (by decide)) dir_literal slash_literal)
        (.cons (.module .purge (.cons (C75_plain (by refine ⟨?_, ?_, ?_, ?_, ?_⟩ <;> decide)) .nil)) .nil)))

theorem slash_lines : CommandLines py!"bash" slashActions
    [py!"envvar_op set \"DIR\" \"C:\\\\new\\d\"", py!"envvar_op unset \"OLD\"",
      py!"envvar_op append \"DIR\" \"C:\\\\new\\d\"", py!"module purge"] :=
  .cons (.shEnvvar (.two (op := py!"set") (by decide) (by decide))) (.cons (.shEnvvar .unset)
    (.cons (.shEnvvar (.two (op := py!"append") (by decide) (by decide))) (.cons (.shModule .purge) .nil)))

theorem slash_expands (env : Environ) : Expands env py!"C:\\new\\d" py!"C:\\new\\d" :=
  (expands_iff _ _ _).2 (by rw [expandvars_eq, expandGo_plain _ (by decide)])

theorem example_agreed : AgreedRun exampleSys exampleTools [(py!"OLD", py!"1")] slashActions := by
  refine .cons (.envvar (.two (op := py!"set") (by decide) (by decide)) dir_name (C77_neutral _ example_neutral).1 slash_literal
    (slash_expands _) .set (by decide) (by intro v h; cases h))
    (.envvar (.two (op := py!"set") (by decide) (by decide)) dir_literal slash_literal) ?_
  intro i e1 h
  have h1 := (congrArg Prod.snd h).symm
  rw [show (SetEnv.envvarOp exampleSys py!"set" py!"DIR" py!"C:\\new\\d" true [(py!"OLD", py!"1")]).2 =
    [(py!"OLD", py!"1"), (py!"DIR", py!"C:\\new\\d")] by decide +kernel] at h1
  dsimp only at h1
  subst h1
  refine .cons (.unset .unset (exampleVar (by decide))) (.unset .unset (varName_literal (exampleVar (by decide)))) ?_
  intro i e2 h
  have h1 := (congrArg Prod.snd h).symm
  rw [show (SetEnv.envvarOp exampleSys py!"unset" py!"OLD" [] true [(py!"OLD", py!"1"), (py!"DIR", py!"C:\\new\\d")]).2 =
    [(py!"DIR", py!"C:\\new\\d")] by decide +kernel] at h1
  dsimp only at h1
  subst h1
  refine .cons (.envvar (.two (op := py!"append") (by decide) (by decide)) dir_name (C77_neutral _ example_neutral).1 slash_literal
    (slash_expands _) (.append (by decide)) (by decide) (noNul_of (by decide +kernel) _))
    (.envvar (.two (op := py!"append") (by decide) (by decide)) dir_literal slash_literal) ?_
  intro i e3 h
  have h1 := (congrArg Prod.snd h).symm
  rw [show (SetEnv.envvarOp exampleSys py!"append" py!"DIR" py!"C:\\new\\d" true [(py!"DIR", py!"C:\\new\\d")]).2 =
    [(py!"DIR", py!"C:\\new\\d:C:\\new\\d")] by decide +kernel] at h1
  dsimp only at h1
  subst h1
  exact .cons (.module .purge (by decide +kernel) rfl rfl)
    (.module .purge (.cons (C75_plain (by refine ⟨?_, ?_, ?_, ?_, ?_⟩ <;> decide)) .nil)) fun _ _ _ => .nil

example (sheb : Bool) {ls ms} (hl : CommandLines py!"bash" slashActions ls) (hp : Performing exampleSys slashActions ms) :
    EndAlike (Bash.runScript exampleTools (scriptText exampleSys py!"bash" false sheb (some ls)) [(py!"OLD", py!"1")])
      (runEach ms [(py!"OLD", py!"1")]) :=
  C77_script hl hp example_agreed sheb

/-- What the script leaves. -/
example : Bash.runScript exampleTools (scriptText exampleSys py!"bash" false true (some
    [py!"envvar_op set \"DIR\" \"C:\\\\new\\d\"", py!"envvar_op unset \"OLD\""])) [(py!"OLD", py!"1")] =
      (.ok (), [(py!"DIR", py!"C:\\new\\d")]) := by
  decide +kernel

/-- `apply` and the script for a section with such values. -/
example :
    let E := SetEnv.env winCfg exampleSettings
    let S := State.fresh E [] []
    (SetEnv.apply exampleSys E 9 py!"TWICE" S).2.environ = [(py!"DIR", py!"C:\\new")] ∧
    (generateScript exampleSys E 9 py!"TWICE" false true true py!"bash" (SetEnv.apply exampleSys E 9 py!"TWICE" S).2).1 =
      .ok (scriptText exampleSys py!"bash" false true (some [py!"envvar_op set \"DIR\" \"C:\\\\new\""])) ∧
    Bash.runScript exampleTools (scriptText exampleSys py!"bash" false true (some
      [py!"envvar_op set \"DIR\" \"C:\\\\new\""])) [] = (.ok (), [(py!"DIR", py!"C:\\new")]) := by
  decide +kernel

end CPE.Props
