import Verif.Proofs.BashScript
import Verif.Props.Apply
/-
C57: the Bash script of a section does what the Python script and `apply` do, on the actions both languages agree on.
C58: where the Bash script does something else (wip/setenvironment).
-/
namespace CPE.Props
open CPE.Spec CPE.SetEnv CPE.SetEnv.Spec

variable {cfg : Cfg} {st : Settings} {n : Nat} {s : Str} {sys : Sys} {tools : Bash.Tools} {env : Environ}

/-! ### C57 -/

/-- C57: the Bash line of a portable action ends like the action performed by Python: same environment; the line exits
the script exactly where Python raises, at a variable that is asserted not to be empty and is. -/
theorem C57_action {a : Action} {l : Str} {m : M Environ Int} (hp : Portable sys tools env a)
    (hl : CommandLine py!"bash" a l) (hd : Does sys a m) : EndAlike (Bash.exec tools l env) (m env) :=
  (Bash.alike_step hp hl hd).1

/-- C57: the Bash script of a list of portable actions ends like the actions performed by Python one after the other. -/
theorem C57_script {l : List Action} {ls : List Str} {ms : List (M Environ Int)}
    (hl : CommandLines py!"bash" l ls) (hp : Program sys l ms) (hr : PortableRun sys tools env l) (sheb : Bool) :
    EndAlike (Bash.runScript tools (scriptText sys py!"bash" false sheb (some ls)) env) (runEach ms env) :=
  Bash.alike_text hl hp hr sheb

/-- C57: the two scripts of a list of portable actions end alike. -/
theorem C57_both_scripts {l : List Action} {bs ps : List Str} {ms : List (M Environ Int)}
    (hb : CommandLines py!"bash" l bs) (hps : CommandLines py!"python" l ps) (hp : Program sys l ms)
    (hc : ∀ a ∈ l, Clean a) (hr : PortableRun sys tools env l) (sheb sheb' : Bool) :
    EndAlike (Bash.runScript tools (scriptText sys py!"bash" false sheb (some bs)) env)
      (runScript sys (scriptText sys py!"python" false sheb' (some ps)) env) := by
  rw [C49_run sys hps hp hc]
  exact C57_script hb hp hr sheb

/-- C57: if `apply(s)` succeeds and the actions of the section are portable in the environment that `apply` started
from, then the Bash script that is then generated runs to its end, and leaves the environment that `apply` has left. -/
theorem C57_same_as_apply (E : Env Shared Actions) {S S' : State} {i : Int}
    (ha : SetEnv.apply sys E n s S = (.ok i, S')) {l : List Action} {ms : List (M Environ Int)}
    (hl : Dict.get? S'.obj.self s = some l) (hp : Program sys l ms) (hc : ∀ a ∈ l, Clean a)
    (hr : PortableRun sys tools S.environ l) (sheb : Bool) :
    ∃ text, generateScript sys E n s false true sheb py!"bash" S' = (.ok text, S') ∧
      Bash.runScript tools text S.environ = (.ok (), S'.environ) := by
  obtain ⟨text, h1, h2⟩ := C49_same_as_apply sys E ha hl hp hc sheb
  have hready : Ready E n s S' S' := .inl ⟨by rw [hl]; simp, rfl⟩
  rcases program_lines (.inl rfl) hp with ⟨bs, hbs⟩ | ⟨l₁, a, l₂, ls, rfl, hls, hinc⟩
  · rcases program_lines (.inr rfl) hp with ⟨ps, hps⟩ | ⟨l₁, a, l₂, ls, rfl, hls, hinc⟩
    · refine ⟨_, C49_text sys E (.inl rfl) hready hl hbs, ?_⟩
      rw [C49_text sys E (.inr rfl) hready hl hps] at h1
      cases h1
      obtain ⟨e1, e2⟩ := C57_both_scripts hbs hps hp hc hr sheb sheb
      rw [h2] at e1 e2
      rcases e2 with ⟨u, v, e2, _⟩ | ⟨_, e2⟩
      · exact Prod.ext e2 e1
      · cases e2
    · rw [C49_incomplete sys E (.inr rfl) hready hl hls hinc] at h1
      cases h1
  · rcases program_lines (.inr rfl) hp with ⟨ps, hps⟩ | ⟨l₃, b, l₄, ls', e, hls', hinc'⟩
    · exfalso
      have key : ∀ {l₁ : List Action} {ps}, CommandLines py!"python" (l₁ ++ a :: l₂) ps → False := by
        intro l₁
        induction l₁ with
        | nil =>
          intro ps h
          cases h with
          | cons h _ =>
            obtain ⟨_, _, _, d4, d5⟩ := @words_det a
            cases h with
            | pyEnvvar h => exact d4 _ h hinc
            | pyModule h => exact d5 _ h hinc
        | cons b l₁ ih =>
          intro ps h
          cases h with
          | cons _ h => exact ih h
      exact key hps
    · rw [C49_incomplete sys E (.inr rfl) hready (e ▸ hl) hls' hinc'] at h1
      cases h1

/-! ### C58 -/

/-- The Bash command of an operation on a variable. -/
def bashCommand (op name : Str) (value : Str) : Str :=
  py!"envvar_op " ++ op ++ py!" \"" ++ name ++ py!"\" \"" ++ value ++ py!"\""

theorem bashCommand_eq (op v w : Str) : bashCommand op v w =
    joinStr py!" " (py!"envvar_op" :: op :: [v, w].map fun w => py!"\"" ++ w ++ py!"\"") := by
  unfold bashCommand
  simp [joinStr]

/-- This is the command that the script has for the action. -/
theorem C58_command {op v w : Str} (hop : op ∈ opNames) (hu : op ≠ py!"unset") :
    CommandLine py!"bash" (.envvar (py!"envvar_" ++ op) v (some w)) (bashCommand op v w) := by
  rw [bashCommand_eq]
  exact .shEnvvar (.two hop hu)

theorem not_mem_joinStr {es : List Str} {c : Char} {sep : Str} (hs : c ∉ sep) (h : ∀ e ∈ es, c ∉ e) :
    c ∉ joinStr sep es := by
  induction es with
  | nil => simp [joinStr]
  | cons d es ih =>
    cases es with
    | nil => exact h d (.head _)
    | cons d' es =>
      rw [joinStr_cons_cons]
      simp only [List.mem_append, not_or]
      exact ⟨⟨h d (.head _), hs⟩, ih fun e he => h e (.tail _ he)⟩

theorem python_entry (sys : Sys) {env : Environ} {v w x : Str} {es : List Str} (hv : VarName v) (hm : Means env w x)
    (hne : es ≠ []) (hes : ∀ e ∈ es, ':' ∉ e) (hg : Dict.get? env v = some (joinStr py!":" es))
    (h0 : Char.ofNat 0 ∉ joinStr py!":" es) :
    SetEnv.envvarOp sys py!"remove_path_entry" v w true env =
      (.ok 0, Dict.set env v (joinStr py!":" (es.filter fun e => decide (e ≠ x)))) := by
  unfold SetEnv.envvarOp
  rw [if_neg (by simp), M.read_bind]
  dsimp only
  rw [Bash.expanded (Bash.expands_of_means hm), if_neg (by decide), if_neg (by decide), if_neg (by decide), if_neg (by decide),
    if_neg (by decide), if_neg (by decide), if_pos rfl, hg]
  dsimp only
  rw [splitChar_joinStr hne hes, M.bind_def, Bash.envvarSet_ok hv.1]
  · rfl
  · refine not_mem_joinStr (by decide) fun e he hc => h0 ?_
    exact Bash.mem_joinStr (List.mem_filter.1 he).1 hc _

/-- C58: `remove_path_entry` in Bash. The variable gets the entries that are left over (of two equal entries in a row
the second one stays) with a colon before and after each of them; and if the first one starts with `1`, that colon and
the `1` are cut off. Nothing else changes. -/
theorem C58_path_entry {v w x : Str} {es ks : List Str} (hv : VarName v) (hm : Means env w x) (hx : x ≠ [])
    (hx' : ':' ∉ x) (hp : ∀ c ∈ x, c ∉ ['*', '?', '[', '\\']) (hne : es ≠ []) (hes : ∀ e ∈ es, ':' ∉ e)
    (hu : Unsplit (joinStr py!":" es)) (hg : Dict.get? env v = some (joinStr py!":" es)) (ht : Thinned x es ks) :
    ∃ env', Bash.exec tools (bashCommand py!"remove_path_entry" v w) env = (.ok (), env') ∧
      ((¬ py!":1" <+: fenced ks ∧ Becomes env v (some (fenced ks)) env') ∨
        ∃ t, fenced ks = py!":1" ++ t ∧ Becomes env v (some t) env') := by
  have htext := Bash.entryText_thinned hx' hne hes ht
  have hun : Unsplit (Bash.entryText x ((Dict.get? env v).getD [])) := by
    rw [hg, Option.getD_some, htext]
    intro c hc
    rcases Bash.mem_fenced (Bash.mem_dropPrefix hc) with rfl | ⟨k, hk, hc⟩
    · decide
    · exact hu c (Bash.mem_joinStr ((Bash.thinned_length ht).2 k hk) hc _)
  rw [bashCommand_eq, Bash.exec_entry hv hm hx hp hun, hg, Option.getD_some, htext]
  refine ⟨_, rfl, ?_⟩
  have hb : ∀ t, Becomes env v (some t) (Dict.set env v t) := fun t =>
    ⟨Dict.get?_set_self _ _ _, fun m hm => Dict.get?_set_ne _ _ hm⟩
  by_cases h1 : (py!":1").isPrefixOf (fenced ks) = true
  · right
    have h2 := h1
    rw [List.isPrefixOf_iff_prefix] at h2
    obtain ⟨t, h2⟩ := h2
    refine ⟨t, h2.symm, ?_⟩
    unfold Bash.dropPrefix
    rw [if_pos h1, ← h2, List.drop_left]
    exact hb t
  · left
    refine ⟨fun h => h1 (List.isPrefixOf_iff_prefix.2 h), ?_⟩
    unfold Bash.dropPrefix
    rw [if_neg h1]
    exact hb _

/-- C58: so the Bash script never leaves the value that `apply` leaves when an entry is removed from a variable that is
set, whether the entry is there or not. -/
theorem C58_path_entry_differs {v w x : Str} {es : List Str} (hv : VarName v) (hm : Means env w x) (hx : x ≠ [])
    (hx' : ':' ∉ x) (hp : ∀ c ∈ x, c ∉ ['*', '?', '[', '\\']) (hne : es ≠ []) (hes : ∀ e ∈ es, ':' ∉ e)
    (hu : Unsplit (joinStr py!":" es)) (h0 : Char.ofNat 0 ∉ joinStr py!":" es)
    (hg : Dict.get? env v = some (joinStr py!":" es)) :
    (∃ env', SetEnv.envvarOp sys py!"remove_path_entry" v w true env = (.ok 0, env') ∧
      Becomes env v (some (joinStr py!":" (es.filter fun e => decide (e ≠ x)))) env') ∧
    ∃ env', Bash.exec tools (bashCommand py!"remove_path_entry" v w) env = (.ok (), env') ∧
      Dict.get? env' v ≠ some (joinStr py!":" (es.filter fun e => decide (e ≠ x))) := by
  refine ⟨⟨_, python_entry sys hv hm hne hes hg h0, Dict.get?_set_self _ _ _, fun m hm => Dict.get?_set_ne _ _ hm⟩, ?_⟩
  obtain ⟨ks, ht⟩ := Bash.thinned_total x es
  have htext := Bash.entryText_thinned hx' hne hes ht
  have hun : Unsplit (Bash.entryText x ((Dict.get? env v).getD [])) := by
    rw [hg, Option.getD_some, htext]
    intro c hc
    rcases Bash.mem_fenced (Bash.mem_dropPrefix hc) with rfl | ⟨k, hk, hc⟩
    · decide
    · exact hu c (Bash.mem_joinStr ((Bash.thinned_length ht).2 k hk) hc _)
  rw [bashCommand_eq, Bash.exec_entry hv hm hx hp hun]
  refine ⟨_, rfl, ?_⟩
  rw [Dict.get?_set_self, hg, Option.getD_some]
  intro h
  exact Bash.entryText_differs hx' hne hes (Option.some.inj h)

/-- C58: removing an entry from, or a text from the value of, a variable that is not set: Python does nothing, Bash sets
the variable, to `::` or to the empty text. -/
theorem C58_unset_variable {v w x : Str} (hv : VarName v) (hm : Means env w x) (hx : x ≠ [])
    (hu : Unsplit x) (hs : ∀ c ∈ x, c ∉ ['.', ']', '^', '$', '#', ':']) (hg : Dict.get? env v = none) :
    (SetEnv.envvarOp sys py!"remove_path_entry" v w true env = (.ok 0, env) ∧
      ∃ env', Bash.exec tools (bashCommand py!"remove_path_entry" v w) env = (.ok (), env') ∧
        Becomes env v (some py!"::") env') ∧
    SetEnv.envvarOp sys py!"remove_substr" v w true env = (.ok 0, env) ∧
      ∃ env', Bash.exec tools (bashCommand py!"remove_substr" v w) env = (.ok (), env') ∧
        Becomes env v (some []) env' := by
  have hb : ∀ t, Becomes env v (some t) (Dict.set env v t) := fun t =>
    ⟨Dict.get?_set_self _ _ _, fun m hm => Dict.get?_set_ne _ _ hm⟩
  have hc : ':' ∉ x := fun h => hs _ h (by decide)
  have htext : Bash.entryText x [] = py!"::" := by
    have := Bash.entryText_thinned hc (es := [[]]) (ks := [[]]) (by simp) (by simp)
      (.keep (fun h => hx h.symm) .nil)
    rw [show joinStr py!":" [[]] = [] from rfl] at this
    rw [this]
    rfl
  refine ⟨⟨?_, _, ?_, hb _⟩, ?_, _, ?_, hb _⟩
  · unfold SetEnv.envvarOp
    rw [if_neg (by simp), M.read_bind]
    dsimp only
    rw [if_neg (by decide), if_neg (by decide), if_neg (by decide), if_neg (by decide),
      if_neg (by decide), if_neg (by decide), if_pos rfl, hg]
    rfl
  · rw [bashCommand_eq, Bash.exec_entry hv hm hx ?_ ?_, hg, Option.getD_none, htext]
    · intro c hc hm'
      refine hu c hc ?_
      simp only [List.mem_cons, List.not_mem_nil, or_false] at hm' ⊢
      rcases hm' with h | h | h | h <;> simp [h]
    · rw [hg, Option.getD_none, htext]
      intro c hc
      simp at hc
      subst hc
      decide
  · unfold SetEnv.envvarOp
    rw [if_neg (by simp), M.read_bind]
    dsimp only
    rw [if_neg (by decide), if_neg (by decide), if_neg (by decide), if_neg (by decide),
      if_neg (by decide), if_pos rfl, hg]
    rfl
  · rw [bashCommand_eq]
    refine Bash.exec_substr_unset hv hm hx hu (fun c hc hm' => hs c hc ?_) hg
    simp only [List.mem_cons, List.not_mem_nil, or_false] at hm' ⊢
    rcases hm' with h | h | h | h | h <;> simp [h]

/-- C58: a reference to a variable that is not set: Python keeps it as it is written, Bash drops it. -/
theorem C58_unset_reference {v x : Str} (hv : VarName v) (hx : Identifier x) (hg : Dict.get? env x = none) {w : Str}
    (hw : w = py!"$" ++ x ∨ w = py!"${" ++ x ++ py!"}") :
    (∃ env', SetEnv.envvarOp sys py!"set" v w true env = (.ok 0, env') ∧ Becomes env v (some w) env') ∧
    ∃ env', Bash.exec tools (bashCommand py!"set" v w) env = (.ok (), env') ∧ Becomes env v (some []) env' := by
  have hb : ∀ t, Becomes env v (some t) (Dict.set env v t) := fun t =>
    ⟨Dict.get?_set_self _ _ _, fun m hm => Dict.get?_set_ne _ _ hm⟩
  obtain ⟨r1, r2⟩ := Bash.readsAs_unset hx hg
  have hr : Bash.ReadsAs env w [] := by rcases hw with rfl | rfl <;> assumption
  have he : Expands env w w := by
    rcases hw with rfl | rfl
    · have := Expands.bare (env := env) (Bash.identifier_ne_nil hx) hx.2 (s := []) (by simp) .nil
      rw [hg] at this
      simpa using this
    · have := Expands.braced (env := env) (Bash.identifier_no_brace hx) .nil
      rw [hg] at this
      simpa using this
  have h0 : Char.ofNat 0 ∉ w := by
    have hxc : Char.ofNat 0 ∉ x := fun h => absurd (hx.2 _ h) (by decide)
    rcases hw with rfl | rfl <;> simp [hxc]
  refine ⟨⟨_, ?_, hb _⟩, _, ?_, hb _⟩
  · have hex : (if w ≠ [] ∧ '$' ∈ w then expandvars env w else w) = w := by
      rw [← (expands_iff env w w).1 he]
      simp
    unfold SetEnv.envvarOp
    rw [if_neg (by simp), M.read_bind]
    dsimp only
    rw [hex, if_pos rfl, M.bind_def, Bash.envvarSet_ok hv.1 h0]
    rfl
  · rw [bashCommand_eq, Bash.exec_set hv hr]

/-- C58: an operation with an argument that is empty, or that is a reference to an empty variable: Bash ends the script,
Python goes on. -/
theorem C58_empty_argument {v w op : Str} (hv : VarName v) (hm : Means env w [])
    (hop : op ∈ [py!"append", py!"prepend", py!"remove_substr", py!"remove_path_entry", py!"find_in_path"])
    (he : ∀ m v, Dict.get? env m = some v → Char.ofNat 0 ∉ v) (hsys : ∀ p, sys.which env [] = some p → Char.ofNat 0 ∉ p) :
    Bash.exec tools (bashCommand op v w) env = (.exc (.user py!"exit"), env) ∧
    (SetEnv.envvarOp sys op v w true env).1 = .ok 0 := by
  refine ⟨by rw [bashCommand_eq]; exact Bash.exec_empty hv hm hop, ?_⟩
  have h0 : Char.ofNat 0 ∉ ([] : Str) := by simp
  unfold SetEnv.envvarOp
  rw [if_neg (by simp), M.read_bind]
  dsimp only
  rw [Bash.expanded (Bash.expands_of_means hm)]
  simp only [List.mem_cons, List.not_mem_nil, or_false] at hop
  rcases hop with rfl | rfl | rfl | rfl | rfl
  · rw [if_neg (by decide), if_neg (by decide), if_pos rfl, M.bind_def, Bash.envvarSet_ok hv.1]
    · rfl
    · cases hg : Dict.get? env v with
      | none => simp [joinStr]
      | some u => simpa [joinStr] using he _ _ hg
  · rw [if_neg (by decide), if_neg (by decide), if_neg (by decide), if_pos rfl, M.bind_def, Bash.envvarSet_ok hv.1]
    · rfl
    · cases hg : Dict.get? env v with
      | none => simp [joinStr]
      | some u => simpa [joinStr] using he _ _ hg
  · rw [if_neg (by decide), if_neg (by decide), if_neg (by decide), if_neg (by decide), if_neg (by decide), if_pos rfl]
    cases hg : Dict.get? env v with
    | none => rfl
    | some u =>
      dsimp only
      rw [removeSubstr, if_pos rfl, M.bind_def, Bash.envvarSet_ok hv.1 (he _ _ hg)]
      rfl
  · rw [if_neg (by decide), if_neg (by decide), if_neg (by decide), if_neg (by decide), if_neg (by decide),
      if_neg (by decide), if_pos rfl]
    cases hg : Dict.get? env v with
    | none => rfl
    | some u =>
      dsimp only
      rw [M.bind_def, Bash.envvarSet_ok hv.1]
      · rfl
      · refine not_mem_joinStr (by decide) fun e hm hc => he _ _ hg ?_
        have := Bash.mem_joinStr (List.mem_filter.1 hm).1 hc py!":"
        rwa [joinStr_splitChar] at this
  · rw [if_neg (by decide), if_neg (by decide), if_neg (by decide), if_neg (by decide), if_neg (by decide),
      if_neg (by decide), if_neg (by decide), if_pos rfl, M.bind_def, Bash.envvarSet_ok hv.1]
    · rfl
    · cases hq : sys.which env [] with
      | none => simp
      | some p => exact hsys p hq

/-- C58: a text with a `#` in it is not removed by the Bash script, which goes on; Python removes it. -/
theorem C58_hash {v w x u : Str} (hv : VarName v) (hm : Means env w x) (hx : '#' ∈ x) (hg : Dict.get? env v = some u)
    (h0 : Char.ofNat 0 ∉ u) :
    Bash.exec tools (bashCommand py!"remove_substr" v w) env = (.ok (), env) ∧
    ∃ env' r, SetEnv.envvarOp sys py!"remove_substr" v w true env = (.ok 0, env') ∧ Removed x u r ∧
      Becomes env v (some r) env' := by
  have hne : x ≠ [] := by rintro rfl; cases hx
  refine ⟨?_, _, removeSubstr x u, ?_, (removed_iff hne _ _).2 rfl,
    ⟨Dict.get?_set_self _ _ _, fun m hm => Dict.get?_set_ne _ _ hm⟩⟩
  · rw [bashCommand_eq, Bash.exec_substr hv hm hne, if_pos hx]
  · unfold SetEnv.envvarOp
    rw [if_neg (by simp), M.read_bind]
    dsimp only
    rw [Bash.expanded (Bash.expands_of_means hm), if_neg (by decide), if_neg (by decide), if_neg (by decide),
      if_neg (by decide), if_neg (by decide), if_pos rfl, hg]
    dsimp only
    rw [M.bind_def, Bash.envvarSet_ok hv.1]
    · rfl
    · exact fun h => h0 (Bash.mem_removeSubstr h)

/-- What is said about Bash ends where it splits words or takes characters as patterns: there the model gives no result.
This is about the reach of C57 and C58, not about the program. -/
theorem C58_reach {v w x : Str} (hv : VarName v) (hm : Means env w x) (hx : x ≠ []) :
    ((∃ c ∈ x, c ∈ ['*', '?', '[', '\\']) →
      Bash.exec tools (bashCommand py!"remove_path_entry" v w) env = (.exc (.user py!"NotModelled"), env)) ∧
    ('#' ∉ x → (¬ Unsplit x ∨ (∃ c ∈ x, c ∈ ['.', ']', '^', '$']) ∨
        ∃ u, Dict.get? env v = some u ∧ (¬ Unsplit u ∨ u.head? = some '-')) →
      Bash.exec tools (bashCommand py!"remove_substr" v w) env = (.exc (.user py!"NotModelled"), env)) ∧
    (¬ Unsplit x ∨ x.head? = some '-' →
      Bash.exec tools (bashCommand py!"find_in_path" v w) env = (.exc (.user py!"NotModelled"), env)) := by
  refine ⟨?_, ?_, ?_⟩
  · rintro ⟨c, hc, hb⟩
    rw [bashCommand_eq, Bash.exec_entry_any hv hm hx, if_neg]
    unfold Bash.patternSafe
    rw [List.all_eq_true]
    intro h
    have := h c hc
    simp only [List.mem_cons, List.not_mem_nil, or_false] at hb
    rcases hb with rfl | rfl | rfl | rfl <;> exact absurd this (by decide)
  · intro h1 h2
    rw [bashCommand_eq, Bash.exec_substr hv hm hx, if_neg h1, if_neg]
    rintro ⟨g1, g2, g3⟩
    unfold Bash.sedSafe at g3
    rw [Bool.and_eq_true, Bash.unquotedSafe_iff, List.all_eq_true] at g3
    rcases h2 with h | ⟨c, hc, hb⟩ | ⟨u, hg, h⟩
    · exact h g3.1
    · have := g3.2 c hc
      simp only [List.mem_cons, List.not_mem_nil, or_false] at hb
      rcases hb with rfl | rfl | rfl | rfl <;> exact absurd this (by decide)
    · rw [hg, Option.getD_some] at g1 g2
      rcases h with h | h
      · exact h ((Bash.unquotedSafe_iff u).1 g1)
      · exact g2 h
  · intro h
    rw [bashCommand_eq, Bash.exec_find_not hv hm hx]
    rintro ⟨g1, g2⟩
    rcases h with h | h
    · exact h ((Bash.unquotedSafe_iff x).1 g1)
    · exact g2 h

/-- C58: a variable named like one of the local variables of `envvar_op` cannot be set by a Bash script; Python sets
it. -/
theorem C58_local_name {v w x : Str} (hv : v ∈ [py!"op", py!"arg1", py!"arg2"]) (hm : Means env w x)
    (he : ∀ m v, Dict.get? env m = some v → Char.ofNat 0 ∉ v) :
    Bash.exec tools (bashCommand py!"set" v w) env = (.ok (), env) ∧
    ∃ env', SetEnv.envvarOp sys py!"set" v w true env = (.ok 0, env') ∧ Becomes env v (some x) env' := by
  refine ⟨by rw [bashCommand_eq]; exact Bash.exec_set_local hv (Bash.readsAs_of_means hm), Dict.set env v x, ?_,
    Dict.get?_set_self _ _ _, fun m hm => Dict.get?_set_ne _ _ hm⟩
  have hid : Identifier v := by
    rw [← Bash.isIdent_iff]
    revert v
    decide +kernel
  unfold SetEnv.envvarOp
  rw [if_neg (by simp), M.read_bind]
  dsimp only
  rw [Bash.expanded (Bash.expands_of_means hm), if_pos rfl, M.bind_def, Bash.envvarSet_ok hid (Bash.means_noNul he hm)]
  rfl

/-! ### Examples -/

def exampleTools : Bash.Tools where
  which := exampleSys.which
  module ws e := (exampleSys.module ws e).2

def portableActions : List Action :=
  [.envvar py!"envvar_set" py!"ROOT" (some py!"${HOME}/sw"), .envvar py!"envvar_append" py!"PATH" (some py!"$ROOT/bin"),
   .envvar py!"envvar_find_in_path" py!"CC" (some py!"cc"), .module py!"module_load" (some py!"gcc") (some py!"4.8"),
   .envvar py!"envvar_remove_substr" py!"PATH" (some py!"/opt"), .envvar py!"envvar_unset" py!"ROOT" none,
   .envvar py!"envvar_assert_not_empty" py!"ROOT" (some py!"no root")]

theorem exampleVar {v : Str} (h : Bash.isIdent v = true ∧ v ∉ helperNames) : VarName v :=
  ⟨(Bash.isIdent_iff v).1 h.1, h.2⟩

/-- An environment without NUL characters. -/
theorem noNul_of {env : Environ} (h : (env.all fun kv => kv.2.all fun c => c != Char.ofNat 0) = true) :
    ∀ m v, Dict.get? env m = some v → Char.ofNat 0 ∉ v := by
  intro m v hg hc
  have hmem : (m, v) ∈ env := by
    clear h hc
    induction env with
    | nil => cases hg
    | cons kv env ih =>
      obtain ⟨k, u⟩ := kv
      unfold Dict.get? at hg
      split at hg
      · rename_i hk
        subst hk
        cases hg
        exact .head _
      · exact .tail _ (ih hg)
  rw [List.all_eq_true] at h
  have := h _ hmem
  rw [List.all_eq_true] at this
  have := this _ hc
  simp at this

theorem means_text {env : Environ} {s : Str} (h : (s.all fun c => c != '$' && !badInQuotes.contains c) = true) :
    Means env s s := by
  induction s with
  | nil => exact .nil
  | cons c s ih =>
    rw [List.all_cons, Bool.and_eq_true, Bool.and_eq_true] at h
    refine .plain ?_ ?_ (ih h.2)
    · simpa using h.1.1
    · simpa using h.1.2

/-- C57: a list with references, a module and a failing assertion is portable. -/
theorem example_portable : PortableRun exampleSys exampleTools exampleEnviron portableActions := by
  refine .cons (.envvar (.two (op := py!"set") (by decide) (by decide)) (exampleVar (by decide +kernel))
    (.braced (x := py!"HOME") (v := py!"/home/u") ((Bash.isIdent_iff _).1 (by decide +kernel)) (by decide +kernel)
      (means_text (s := py!"/sw") (by decide +kernel))) .set (noNul_of (by decide +kernel)))
    (.envvar (.two (op := py!"set") (by decide) (by decide))) ?_
  intro i e1 h
  have h1 : e1 = (SetEnv.envvarOp exampleSys py!"set" py!"ROOT" py!"${HOME}/sw" true exampleEnviron).2 :=
    (congrArg Prod.snd h).symm
  rw [show (SetEnv.envvarOp exampleSys py!"set" py!"ROOT" py!"${HOME}/sw" true exampleEnviron).2 =
    exampleEnviron ++ [(py!"ROOT", py!"/home/u/sw")] by decide +kernel] at h1
  subst h1
  refine .cons (.envvar (.two (op := py!"append") (by decide) (by decide)) (exampleVar (by decide +kernel))
    (.bare (x := py!"ROOT") (v := py!"/home/u/sw") ((Bash.isIdent_iff _).1 (by decide +kernel))
      (by intro c r h; cases h; decide) (by decide +kernel)
      (means_text (s := py!"/bin") (by decide +kernel))) (.append (by decide)) (noNul_of (by decide +kernel)))
    (.envvar (.two (op := py!"append") (by decide) (by decide))) ?_
  intro i e2 h
  have h1 := (congrArg Prod.snd h).symm
  rw [show (SetEnv.envvarOp exampleSys py!"append" py!"PATH" py!"$ROOT/bin" true
      (exampleEnviron ++ [(py!"ROOT", py!"/home/u/sw")])).2 =
    [(py!"HOME", py!"/home/u"), (py!"PATH", py!"/bin:/opt/x:/usr/bin:/opt/x:/home/u/sw/bin"), (py!"EMPTY", []),
      (py!"ROOT", py!"/home/u/sw")] by decide +kernel] at h1
  dsimp only at h1
  subst h1
  refine .cons (.envvar (.two (op := py!"find_in_path") (by decide) (by decide)) (exampleVar (by decide +kernel))
    (means_text (s := py!"cc") (by decide +kernel)) (.findInPath (by decide)
      ((Bash.unquotedSafe_iff _).1 (by decide +kernel)) (by decide) rfl (by
        intro p hp
        cases hp
        decide +kernel)) (noNul_of (by decide +kernel)))
    (.envvar (.two (op := py!"find_in_path") (by decide) (by decide))) ?_
  intro i e3 h
  have h1 := (congrArg Prod.snd h).symm
  rw [show (SetEnv.envvarOp exampleSys py!"find_in_path" py!"CC" py!"cc" true
    [(py!"HOME", py!"/home/u"), (py!"PATH", py!"/bin:/opt/x:/usr/bin:/opt/x:/home/u/sw/bin"), (py!"EMPTY", []),
      (py!"ROOT", py!"/home/u/sw")]).2 =
    [(py!"HOME", py!"/home/u"), (py!"PATH", py!"/bin:/opt/x:/usr/bin:/opt/x:/home/u/sw/bin"), (py!"EMPTY", []),
      (py!"ROOT", py!"/home/u/sw"), (py!"CC", py!"/usr/bin/cc")] by decide +kernel] at h1
  dsimp only at h1
  subst h1
  refine .cons (.module (.loadVersion (n := py!"gcc") (v := py!"4.8") (by decide)) (by
      intro w hw
      simp only [List.mem_cons, List.not_mem_nil, or_false] at hw
      rcases hw with rfl | rfl
      · exact ⟨by decide, fun c hc => (Bash.bare_iff c).1 (by revert c; decide +kernel)⟩
      · exact ⟨by decide, fun c hc => (Bash.bare_iff c).1 (by revert c; decide +kernel)⟩) rfl rfl)
    (.module (.loadVersion (n := py!"gcc") (v := py!"4.8") (by decide))) ?_
  intro i e4 h
  have h1 := (congrArg Prod.snd h).symm
  rw [show (exampleSys.module [py!"load", py!"gcc" ++ py!"/" ++ py!"4.8"]
    [(py!"HOME", py!"/home/u"), (py!"PATH", py!"/bin:/opt/x:/usr/bin:/opt/x:/home/u/sw/bin"), (py!"EMPTY", []),
      (py!"ROOT", py!"/home/u/sw"), (py!"CC", py!"/usr/bin/cc")]).2 =
    [(py!"HOME", py!"/home/u"), (py!"PATH", py!"/bin:/opt/x:/usr/bin:/opt/x:/home/u/sw/bin"), (py!"EMPTY", []),
      (py!"ROOT", py!"/home/u/sw"), (py!"CC", py!"/usr/bin/cc"), (py!"LOADED", py!"load gcc/4.8")]
    by decide +kernel] at h1
  dsimp only at h1
  subst h1
  refine .cons (.envvar (.two (op := py!"remove_substr") (by decide) (by decide)) (exampleVar (by decide +kernel))
    (means_text (s := py!"/opt") (by decide +kernel)) (.removeSubstr (by decide)
      ((Bash.unquotedSafe_iff _).1 (by decide +kernel)) (by decide +kernel)
      (v := py!"/bin:/opt/x:/usr/bin:/opt/x:/home/u/sw/bin") (by decide +kernel)
      ((Bash.unquotedSafe_iff _).1 (by decide +kernel)) (by decide)) (noNul_of (by decide +kernel)))
    (.envvar (.two (op := py!"remove_substr") (by decide) (by decide))) ?_
  intro i e5 h
  have h1 := (congrArg Prod.snd h).symm
  rw [show (SetEnv.envvarOp exampleSys py!"remove_substr" py!"PATH" py!"/opt" true
    [(py!"HOME", py!"/home/u"), (py!"PATH", py!"/bin:/opt/x:/usr/bin:/opt/x:/home/u/sw/bin"), (py!"EMPTY", []),
      (py!"ROOT", py!"/home/u/sw"), (py!"CC", py!"/usr/bin/cc"), (py!"LOADED", py!"load gcc/4.8")]).2 =
    [(py!"HOME", py!"/home/u"), (py!"PATH", py!"/bin:/x:/usr/bin:/x:/home/u/sw/bin"), (py!"EMPTY", []),
      (py!"ROOT", py!"/home/u/sw"), (py!"CC", py!"/usr/bin/cc"), (py!"LOADED", py!"load gcc/4.8")]
    by decide +kernel] at h1
  dsimp only at h1
  subst h1
  refine .cons (.unset .unset (exampleVar (by decide +kernel))) (.unset .unset) ?_
  intro i e6 h
  have h1 := (congrArg Prod.snd h).symm
  rw [show (SetEnv.envvarOp exampleSys py!"unset" py!"ROOT" [] true
    [(py!"HOME", py!"/home/u"), (py!"PATH", py!"/bin:/x:/usr/bin:/x:/home/u/sw/bin"), (py!"EMPTY", []),
      (py!"ROOT", py!"/home/u/sw"), (py!"CC", py!"/usr/bin/cc"), (py!"LOADED", py!"load gcc/4.8")]).2 =
    [(py!"HOME", py!"/home/u"), (py!"PATH", py!"/bin:/x:/usr/bin:/x:/home/u/sw/bin"), (py!"EMPTY", []),
      (py!"CC", py!"/usr/bin/cc"), (py!"LOADED", py!"load gcc/4.8")] by decide +kernel] at h1
  dsimp only at h1
  subst h1
  exact .cons (.envvar (.two (op := py!"assert_not_empty") (by decide) (by decide)) (exampleVar (by decide +kernel))
    (means_text (s := py!"no root") (by decide +kernel)) .assertNotEmpty (noNul_of (by decide +kernel)))
    (.envvar (.two (op := py!"assert_not_empty") (by decide) (by decide))) fun _ _ _ => .nil

/-- C57_script on this list: the hypotheses on commands and steps are met as well. -/
example (ls : List Str) (ms : List (M Environ Int)) (hl : CommandLines py!"bash" portableActions ls)
    (hp : Program exampleSys portableActions ms) :
    EndAlike (Bash.runScript exampleTools (scriptText exampleSys py!"bash" false true (some ls)) exampleEnviron)
      (runEach ms exampleEnviron) :=
  C57_script hl hp example_portable true

example : (∃ ls, CommandLines py!"bash" portableActions ls) ∧ ∃ ms, Program exampleSys portableActions ms :=
  ⟨⟨_, .cons (.shEnvvar (.two (op := py!"set") (by decide) (by decide)))
      (.cons (.shEnvvar (.two (op := py!"append") (by decide) (by decide)))
      (.cons (.shEnvvar (.two (op := py!"find_in_path") (by decide) (by decide)))
      (.cons (.shModule (.loadVersion (by decide)))
      (.cons (.shEnvvar (.two (op := py!"remove_substr") (by decide) (by decide)))
      (.cons (.shEnvvar .unset)
      (.cons (.shEnvvar (.two (op := py!"assert_not_empty") (by decide) (by decide))) .nil))))))⟩,
    _, .cons (.envvar (.two (op := py!"set") (by decide) (by decide)))
      (.cons (.envvar (.two (op := py!"append") (by decide) (by decide)))
      (.cons (.envvar (.two (op := py!"find_in_path") (by decide) (by decide)))
      (.cons (.module (.loadVersion (by decide)))
      (.cons (.envvar (.two (op := py!"remove_substr") (by decide) (by decide)))
      (.cons (.unset .unset)
      (.cons (.envvar (.two (op := py!"assert_not_empty") (by decide) (by decide))) .nil))))))⟩

/-- Both ways end at the assertion, with the same environment. -/
example : Bash.runScript exampleTools (scriptText exampleSys py!"bash" false true (some
      [py!"envvar_op set \"ROOT\" \"${HOME}/sw\"", py!"envvar_op append \"PATH\" \"$ROOT/bin\"",
       py!"envvar_op find_in_path \"CC\" \"cc\"", py!"module load gcc/4.8",
       py!"envvar_op remove_substr \"PATH\" \"/opt\"", py!"envvar_op unset \"ROOT\"",
       py!"envvar_op assert_not_empty \"ROOT\" \"no root\""])) exampleEnviron =
    (.exc (.user py!"exit"), [(py!"HOME", py!"/home/u"), (py!"PATH", py!"/bin:/x:/usr/bin:/x:/home/u/sw/bin"),
      (py!"EMPTY", []), (py!"CC", py!"/usr/bin/cc"), (py!"LOADED", py!"load gcc/4.8")]) := by
  decide +kernel

/-- C58: the two languages on `remove_path_entry`; entries twice in a row; a first entry that starts with `1`. -/
example :
    (Bash.exec exampleTools (bashCommand py!"remove_path_entry" py!"PATH" py!"/opt/x") exampleEnviron).2 =
      [(py!"HOME", py!"/home/u"), (py!"PATH", py!":/bin:/usr/bin:"), (py!"EMPTY", [])] ∧
    (SetEnv.envvarOp exampleSys py!"remove_path_entry" py!"PATH" py!"/opt/x" true exampleEnviron).2 =
      [(py!"HOME", py!"/home/u"), (py!"PATH", py!"/bin:/usr/bin"), (py!"EMPTY", [])] ∧
    Bash.exec exampleTools (bashCommand py!"remove_path_entry" py!"P" py!"b") [(py!"P", py!"b:b:a")] =
      (.ok (), [(py!"P", py!":b:a:")]) ∧
    Bash.exec exampleTools (bashCommand py!"remove_path_entry" py!"P" py!"b") [(py!"P", py!"b:1a:c")] =
      (.ok (), [(py!"P", py!"a:c:")]) := by decide +kernel

/-- C58_path_entry: its hypotheses are met. -/
example : Thinned py!"/opt/x" [py!"/bin", py!"/opt/x", py!"/usr/bin", py!"/opt/x"] [py!"/bin", py!"/usr/bin"] ∧
    Dict.get? exampleEnviron py!"PATH" = some (joinStr py!":" [py!"/bin", py!"/opt/x", py!"/usr/bin", py!"/opt/x"]) ∧
    Unsplit (joinStr py!":" [py!"/bin", py!"/opt/x", py!"/usr/bin", py!"/opt/x"]) ∧
    Means exampleEnviron py!"/opt/x" py!"/opt/x" ∧ VarName py!"PATH" :=
  ⟨.keep (by decide) (.drop .last), rfl, (Bash.unquotedSafe_iff _).1 (by decide +kernel),
    means_text (by decide +kernel), exampleVar (by decide +kernel)⟩

/-- C58_unset_reference and C58_empty_argument. -/
example :
    Bash.exec exampleTools (bashCommand py!"set" py!"A" py!"$NONE") [] = (.ok (), [(py!"A", [])]) ∧
    (SetEnv.envvarOp exampleSys py!"set" py!"A" py!"$NONE" true []).2 = [(py!"A", py!"$NONE")] ∧
    Bash.exec exampleTools (bashCommand py!"append" py!"PATH" py!"$EMPTY") exampleEnviron =
      (.exc (.user py!"exit"), exampleEnviron) ∧
    Means exampleEnviron py!"$EMPTY" [] := by
  refine ⟨by decide +kernel, by decide +kernel, by decide +kernel, ?_⟩
  exact .bare (x := py!"EMPTY") (v := []) ((Bash.isIdent_iff _).1 (by decide +kernel)) (by intro c r h; cases h)
    (by decide +kernel) .nil

example : VarName py!"P" ∧ Means [(py!"P", py!"a#b#c")] py!"#b" py!"#b" ∧
    Bash.exec exampleTools (bashCommand py!"remove_substr" py!"P" py!"#b") [(py!"P", py!"a#b#c")] =
      (.ok (), [(py!"P", py!"a#b#c")]) ∧
    (SetEnv.envvarOp exampleSys py!"remove_substr" py!"P" py!"#b" true [(py!"P", py!"a#b#c")]).2 = [(py!"P", py!"a#c")] :=
  ⟨exampleVar (by decide +kernel), means_text (by decide +kernel), by decide +kernel, by decide +kernel⟩

-- texts that are out of the reach of the model
example : ∃ c ∈ py!"lib[0]", c ∈ ['*', '?', '[', '\\'] := ⟨'[', by decide, by decide⟩

end CPE.Props
