import Verif.Proofs.EnvVars
/-
C45, C46: the operations on environment variables (wip/setenvironment, `envvar_op`).
-/
namespace CPE.Props
open CPE.Spec CPE.SetEnv CPE.SetEnv.Spec

/-! ### C46 -/

/-- C46: `Expands` describes one text for every environment and value, the one of `os.path.expandvars`. -/
theorem C46_expansion (env : Environ) (s r : Str) : Expands env s r ↔ r = expandvars env s := expands_iff env s r

/-- C46: a value without `$` is taken as it is. -/
theorem C46_no_reference {env : Environ} {s r : Str} (hs : '$' ∉ s) (h : Expands env s r) : r = s := by
  rw [(expands_iff env s r).1 h, expandvars, if_neg hs]

/-- C46: what a variable holds is not expanded again, even if it contains references. -/
theorem C46_once {env : Environ} {n v : Str} (hn : '}' ∉ n) (hv : Dict.get? env n = some v) :
    Expands env (py!"${" ++ n ++ py!"}") v := by
  have := Expands.braced (env := env) hn .nil
  rw [hv] at this
  simpa using this

/-- C46: the expansion of a text is that of its two halves, if the second starts with a character that cannot
belong to a reference and the first is itself completely expanded (no open brace). -/
theorem C46_concat {env : Environ} {a b r q : Str} (ha : Expands env a r) (hb : Expands env b q)
    (hbr : '}' ∉ b) (hw : ∀ c t, b = c :: t → ¬ WordChar c ∧ c ≠ '{') : Expands env (a ++ b) (r ++ q) := by
  induction ha with
  | nil => exact hb
  | plain hc _ ih => exact .plain hc ih
  | braced hn _ ih => simpa using Expands.braced hn ih
  | @bare name s r hne hwd hs _ ih =>
    have := Expands.bare (env := env) hne hwd (s := s ++ b) (r := r ++ q) (fun c t h => by
      cases s with
      | nil => exact (hw c t h).1
      | cons d s => exact hs c s (by cases h; rfl)) ih
    simpa using this
  | @lone s r hn _ ih =>
    refine .lone ?_ ih
    rintro (⟨c, t, h, hc⟩ | ⟨t, h, ht⟩)
    · cases s with
      | nil => exact (hw c t h).1 hc
      | cons d s => cases h; exact hn (.inl ⟨c, s, rfl, hc⟩)
    · cases s with
      | nil => exact (hw '{' t h).2 rfl
      | cons d s =>
        cases h
        rcases List.mem_append.1 ht with ht | ht
        · exact hn (.inr ⟨s, rfl, ht⟩)
        · exact hbr ht

/-- Both forms of references, an unset variable, a lone `$`, and a value that contains a reference itself. -/
example : Expands [(py!"A", py!"x"), (py!"B", py!"$A")] py!"$A/${B}/$C/$/$A_" py!"x/$A/$C/$/$A_" := by
  rw [C46_expansion]; rfl

/-! ### C45 -/

/-- C45: an operation on a variable asks for exactly one change, whatever the operation, the value and the state. -/
theorem C45_demand (found : Option Str) (op : Str) (old : Option Str) (x : Str) :
    ∃ ch, Demand found op old x ch ∧ ∀ ch', Demand found op old x ch' → ch' = ch := by
  by_cases hop : op ∈ opNames
  · simp only [opNames, List.mem_cons, List.not_mem_nil, or_false] at hop
    rcases hop with rfl | rfl | rfl | rfl | rfl | rfl | rfl | rfl | rfl
    · exact ⟨_, .set, fun ch' h => by cases h <;> first | rfl | (rename_i h; exact absurd (by decide) h)⟩
    · cases old with
      | none => exact ⟨_, .setIfUnset, fun ch' h => by cases h <;> first | rfl | (rename_i h; exact absurd (by decide) h)⟩
      | some v =>
        by_cases hv : v = []
        · subst hv
          exact ⟨_, .setIfEmpty, fun ch' h => by
            cases h <;> first | rfl | (rename_i h; exact absurd rfl h) | (rename_i h; exact absurd (by decide) h)⟩
        · exact ⟨_, .setIfNot hv, fun ch' h => by
            cases h <;> first | rfl | exact absurd rfl hv | (rename_i h; exact absurd (by decide) h)⟩
    · cases old with
      | none => exact ⟨_, .appendNew, fun ch' h => by cases h <;> first | rfl | (rename_i h; exact absurd (by decide) h)⟩
      | some v => exact ⟨_, .append, fun ch' h => by cases h <;> first | rfl | (rename_i h; exact absurd (by decide) h)⟩
    · cases old with
      | none => exact ⟨_, .prependNew, fun ch' h => by cases h <;> first | rfl | (rename_i h; exact absurd (by decide) h)⟩
      | some v => exact ⟨_, .prepend, fun ch' h => by cases h <;> first | rfl | (rename_i h; exact absurd (by decide) h)⟩
    · cases old with
      | none => exact ⟨_, .unsetNone, fun ch' h => by cases h <;> first | rfl | (rename_i h; exact absurd (by decide) h)⟩
      | some v => exact ⟨_, .unset, fun ch' h => by cases h <;> first | rfl | (rename_i h; exact absurd (by decide) h)⟩
    · cases old with
      | none => exact ⟨_, .substrNone, fun ch' h => by cases h <;> first | rfl | (rename_i h; exact absurd (by decide) h)⟩
      | some v =>
        by_cases hx : x = []
        · subst hx
          exact ⟨_, .substrEmpty, fun ch' h => by
            cases h <;> first | rfl | (rename_i h _; exact absurd rfl h) | (rename_i h; exact absurd (by decide) h)⟩
        · obtain ⟨r, hr⟩ := removed_total hx v
          refine ⟨_, .substr hx hr, fun ch' h => ?_⟩
          generalize hop : py!"remove_substr" = op at h
          cases h <;> first | (cases hop; done) | skip
          · exact absurd rfl hx
          · rename_i hr'
            rw [(removed_iff hx _ _).1 hr, (removed_iff hx _ _).1 hr']
          · rename_i h
            subst hop
            exact absurd (by decide) h
    · cases old with
      | none => exact ⟨_, .entryNone, fun ch' h => by cases h <;> first | rfl | (rename_i h; exact absurd (by decide) h)⟩
      | some v =>
        have hd := Demand.entry (found := found) (x := x) (splitChar_ne_nil ':' v) (splitChar_not_mem ':' v)
        rw [joinStr_splitChar] at hd
        refine ⟨_, hd, fun ch' h => ?_⟩
        generalize hop : py!"remove_path_entry" = op at h
        generalize hold : some v = old at h
        cases h <;> first | (cases hop; done) | skip
        · cases hold
        · rename_i hne hes
          cases hold
          rw [splitChar_joinStr hne hes]
        · rename_i h
          subst hop
          exact absurd (by decide) h
    · cases found with
      | none => exact ⟨_, .findNot rfl, fun ch' h => by
          cases h <;> first | rfl | (rename_i h; cases h; done) | (rename_i h; exact absurd (by decide) h)⟩
      | some v => exact ⟨_, .find rfl, fun ch' h => by
          cases h <;> first | (rename_i h; cases h; rfl) | (rename_i h; cases h; done) | (rename_i h; exact absurd (by decide) h)⟩
    · cases old with
      | none => exact ⟨_, .assertUnset, fun ch' h => by cases h <;> first | rfl | (rename_i h; exact absurd (by decide) h)⟩
      | some v =>
        by_cases hv : v = []
        · subst hv
          exact ⟨_, .assertEmpty, fun ch' h => by
            cases h <;> first | rfl | (rename_i h; exact absurd rfl h) | (rename_i h; exact absurd (by decide) h)⟩
        · exact ⟨_, .assert hv, fun ch' h => by
            cases h <;> first | rfl | exact absurd rfl hv | (rename_i h; exact absurd (by decide) h)⟩
  · refine ⟨_, .unknown hop, fun ch' h => ?_⟩
    cases h <;> first | rfl | exact absurd (by decide) hop

theorem expanded_value (env : Environ) (value : Str) :
    (if value ≠ [] ∧ '$' ∈ value then expandvars env value else value) = expandvars env value := by
  unfold expandvars
  by_cases h : '$' ∈ value
  · have : value ≠ [] := by rintro rfl; cases h
    rw [if_pos ⟨this, h⟩]
  · rw [if_neg (fun hh => h hh.2), if_neg h]

/-- The outcome demanded by a change of variable `name`: a refusal is a ValueError, and so is an assignment with a NUL
character or a `=` in the name; an assignment to the empty name is an OSError. In these cases nothing changes. -/
def Outcome (env : Environ) (name : Str) (ch : Change) (res : Out Int × Environ) : Prop :=
  match ch with
  | .keep => res = (.ok 0, env)
  | .refuse => res = (.exc .valueError, env)
  | .unset => ∃ env', res = (.ok 0, env') ∧ Becomes env name none env'
  | .write y =>
    (ValidName name ∧ Char.ofNat 0 ∉ y → ∃ env', res = (.ok 0, env') ∧ Becomes env name (some y) env') ∧
    ('=' ∈ name ∨ Char.ofNat 0 ∈ name ∨ Char.ofNat 0 ∈ y → res = (.exc .valueError, env)) ∧
    (name = [] ∧ Char.ofNat 0 ∉ y → res = (.exc .ioError, env))

theorem put_outcome (env : Environ) (name y : Str) :
    Outcome env name (.write y) ((do let _ ← envvarSet name y true; pure 0 : M Environ Int) env) := by
  have h : (do let _ ← envvarSet name y true; pure 0 : M Environ Int) env =
      match putEnv name y env with
      | (.ok _, e) => (.ok 0, e)
      | (.exc x, e) => (.exc x, e)
      | (.diverge, e) => (.diverge, e) := by
    unfold envvarSet
    rw [if_neg (by simp)]
    simp only [M.bind_def]
    cases putEnv name y env with
    | mk a b => cases a <;> rfl
  rw [h]
  refine ⟨?_, ?_, ?_⟩
  · rintro ⟨⟨h1, h2, h3⟩, h4⟩
    unfold putEnv
    rw [if_neg (by rintro (h | h | h) <;> contradiction), if_neg h1]
    exact ⟨_, rfl, Dict.get?_set_self _ _ _, fun m hm => Dict.get?_set_ne _ _ hm⟩
  · intro hn
    unfold putEnv
    rw [if_pos (by rcases hn with h | h | h <;> simp [h])]
  · rintro ⟨rfl, hn⟩
    unfold putEnv
    rw [if_neg (by simpa using hn), if_pos rfl]

/-- C45: for every operation, name, value and environment: with `x` the expanded value, the outcome of
`envvar_op(op, name, value)` is that of the change asked for, on that variable only. -/
theorem C45_exact (sys : Sys) {op name value x : Str} {env : Environ} {ch : Change} (hx : Expands env value x)
    (hd : Demand (sys.which env x) op (Dict.get? env name) x ch) :
    Outcome env name ch (envvarOp sys op name value true env) := by
  have hx := (expands_iff _ _ _).1 hx
  unfold envvarOp
  rw [if_neg (by simp), M.read_bind]
  dsimp only
  rw [expanded_value, ← hx]
  clear hx
  generalize hfound : sys.which env x = found at hd
  generalize hold : Dict.get? env name = old at hd
  cases hd with
  | set => exact put_outcome env name x
  | setIfUnset =>
    have h : envvarSetIfEmpty name x true env = envvarSet name x true env := by
      unfold envvarSetIfEmpty envvarSet
      rw [if_neg (by simp), if_neg (by simp), M.read_bind, hold, if_pos (.inl rfl)]
    have := put_outcome env name x
    rw [M.bind_def, ← h] at this
    exact this
  | setIfEmpty =>
    have h : envvarSetIfEmpty name x true env = envvarSet name x true env := by
      unfold envvarSetIfEmpty envvarSet
      rw [if_neg (by simp), if_neg (by simp), M.read_bind, hold, if_pos (.inr rfl)]
    have := put_outcome env name x
    rw [M.bind_def, ← h] at this
    exact this
  | @setIfNot v _ hv =>
    have h : envvarSetIfEmpty name x true env = (.ok 0, env) := by
      unfold envvarSetIfEmpty
      rw [if_neg (by simp), M.read_bind, hold, if_neg (by simp [hv])]
      rfl
    have h2 : (do let _ ← envvarSetIfEmpty name x true; pure 0 : M Environ Int) env = (.ok 0, env) := by
      rw [M.bind_def, h]
      rfl
    exact h2
  | appendNew => exact put_outcome env name x
  | @append v _ => exact put_outcome env name (v ++ py!":" ++ x)
  | prependNew => exact put_outcome env name x
  | @prepend v _ => exact put_outcome env name (x ++ py!":" ++ v)
  | unset => exact ⟨_, rfl, get?_dictDel_self _ _, fun m hm => get?_dictDel_ne _ hm⟩
  | unsetNone => rfl
  | substrNone => rfl
  | @substrEmpty v => exact put_outcome env name v
  | @substr v _ r hx hr =>
    rw [(removed_iff hx _ _).1 hr]
    exact put_outcome env name (removeSubstr x v)
  | entryNone => rfl
  | @entry _ es hne hes =>
    have := put_outcome env name (joinStr py!":" ((splitChar ':' (joinStr py!":" es)).filter fun e => decide (e ≠ x)))
    rw [show es.filter (fun e => decide (e ≠ x)) = (splitChar ':' (joinStr py!":" es)).filter (fun e => decide (e ≠ x)) from by
      rw [splitChar_joinStr hne hes]]
    exact this
  | @find _ _ v h =>
    have := put_outcome env name v
    subst h
    exact this
  | findNot h =>
    subst h
    exact put_outcome env name []
  | @assert v _ hv =>
    have h2 : (if some v = none ∨ some v = some [] then (do M.raise .valueError; pure 0) else pure 0 : M Environ Int) env =
        (.ok 0, env) := by
      rw [if_neg (by simp [hv])]
      rfl
    exact h2
  | assertUnset => rfl
  | assertEmpty => rfl
  | unknown hop =>
    simp only [opNames, List.mem_cons, List.not_mem_nil, or_false, not_or] at hop
    obtain ⟨h1, h2, h3, h4, h5, h6, h7, h8, h9⟩ := hop
    rw [if_neg h1, if_neg h2, if_neg h3, if_neg h4, if_neg h5, if_neg h6, if_neg h7, if_neg h8, if_neg h9]
    rfl

theorem set_strict (env : Environ) (name y : Str) :
    (do let _ ← envvarSet name y false; pure 0 : M Environ Int) env =
      if y = [] then (.exc .valueError, env) else (do let _ ← envvarSet name y true; pure 0 : M Environ Int) env := by
  by_cases h : y = []
  · subst h; rfl
  · rw [if_neg h]
    unfold envvarSet
    rw [if_neg (by simp [h]), if_neg (by simp)]

theorem setIfEmpty_strict (env : Environ) (name y : Str) :
    (do let _ ← envvarSetIfEmpty name y false; pure 0 : M Environ Int) env =
      if y = [] then (.exc .valueError, env)
      else (do let _ ← envvarSetIfEmpty name y true; pure 0 : M Environ Int) env := by
  by_cases h : y = []
  · subst h; rfl
  · rw [if_neg h]
    unfold envvarSetIfEmpty
    rw [if_neg (by simp [h]), if_neg (by simp)]

/-- C45, with `allow_empty=False`: a call with the empty value, a `set_if_empty` whose value expands to the empty
text, and a call that would assign the empty text raise ValueError and change nothing; every other call does what it
does by default. -/
theorem C45_no_empty (sys : Sys) {op name value x : Str} {env : Environ} {ch : Change} (hx : Expands env value x)
    (hd : Demand (sys.which env x) op (Dict.get? env name) x ch) :
    ((value = [] ∨ ch = .write [] ∨ op = py!"set_if_empty" ∧ x = []) →
      envvarOp sys op name value false env = (.exc .valueError, env)) ∧
    (¬ (value = [] ∨ ch = .write [] ∨ op = py!"set_if_empty" ∧ x = []) →
      envvarOp sys op name value false env = envvarOp sys op name value true env) := by
  have hx := (expands_iff _ _ _).1 hx
  by_cases hv : value = []
  · refine ⟨fun _ => ?_, fun h => absurd (.inl hv) h⟩
    unfold envvarOp
    rw [if_pos ⟨rfl, hv⟩]
    rfl
  suffices h : envvarOp sys op name value false env =
      if ch = .write [] ∨ op = py!"set_if_empty" ∧ x = [] then (.exc .valueError, env)
      else envvarOp sys op name value true env by
    rw [h]
    refine ⟨fun hh => if_pos (hh.resolve_left hv), fun hh => if_neg fun h => hh (.inr h)⟩
  generalize hT : envvarOp sys op name value true env = T
  unfold envvarOp at hT ⊢
  rw [if_neg (c := false = false ∧ value = []) (by simp [hv]), M.read_bind]
  rw [if_neg (by simp), M.read_bind] at hT
  dsimp only at hT ⊢
  rw [expanded_value, ← hx] at hT ⊢
  subst hT
  clear hx
  generalize hfound : sys.which env x = found at hd
  generalize hold : Dict.get? env name = old at hd
  have key : ∀ (y : Str) {r : Out Int × Environ}, r = (do let _ ← envvarSet name y true; pure 0 : M Environ Int) env →
      op ≠ py!"set_if_empty" → ch = .write y →
      (do let _ ← envvarSet name y false; pure 0 : M Environ Int) env =
        if ch = .write [] ∨ op = py!"set_if_empty" ∧ x = [] then (.exc .valueError, env) else r := by
    rintro y r rfl hop rfl
    rw [set_strict]
    by_cases hy : y = []
    · subst hy; rw [if_pos rfl, if_pos (.inl rfl)]
    · rw [if_neg hy, if_neg]
      rintro (h | h)
      · cases h; exact hy rfl
      · exact hop h.1
  have keySIE : ∀ {r : Out Int × Environ}, r = (do let _ ← envvarSetIfEmpty name x true; pure 0 : M Environ Int) env →
      (ch = .write x ∨ ch = .keep) →
      (do let _ ← envvarSetIfEmpty name x false; pure 0 : M Environ Int) env =
        if ch = .write [] ∨ py!"set_if_empty" = py!"set_if_empty" ∧ x = [] then (.exc .valueError, env) else r := by
    rintro r rfl hch
    rw [setIfEmpty_strict]
    by_cases hy : x = []
    · rw [if_pos hy, if_pos (.inr ⟨rfl, hy⟩)]
    · rw [if_neg hy, if_neg]
      rintro (h | h)
      · rcases hch with rfl | rfl
        · cases h; exact hy rfl
        · cases h
      · exact hy h.2
  cases hd with
  | set => exact key x rfl (by decide) rfl
  | setIfUnset => exact keySIE rfl (.inl rfl)
  | setIfEmpty => exact keySIE rfl (.inl rfl)
  | setIfNot => exact keySIE rfl (.inr rfl)
  | appendNew => exact key x rfl (by decide) rfl
  | @append v _ => exact key (v ++ py!":" ++ x) rfl (by decide) rfl
  | prependNew => exact key x rfl (by decide) rfl
  | @prepend v _ => exact key (x ++ py!":" ++ v) rfl (by decide) rfl
  | unset => rfl
  | unsetNone => rfl
  | substrNone => rfl
  | @substrEmpty v => exact key v rfl (by decide) rfl
  | @substr v _ r hx hr =>
    rw [(removed_iff hx _ _).1 hr] at key ⊢
    exact key (removeSubstr x v) rfl (by decide) rfl
  | entryNone => rfl
  | @entry _ es hne hes =>
    rw [show es.filter (fun e => decide (e ≠ x)) = (splitChar ':' (joinStr py!":" es)).filter (fun e => decide (e ≠ x)) from by
      rw [splitChar_joinStr hne hes]] at key ⊢
    exact key (joinStr py!":" ((splitChar ':' (joinStr py!":" es)).filter (fun e => decide (e ≠ x)))) rfl (by decide) rfl
  | @find _ _ v h => subst h; exact key v rfl (by decide) rfl
  | findNot h => subst h; exact key [] rfl (by decide) rfl
  | @assert v _ hv => rfl
  | assertUnset => rfl
  | assertEmpty => rfl
  | unknown hop =>
    simp only [opNames, List.mem_cons, List.not_mem_nil, or_false, not_or] at hop
    obtain ⟨h1, h2, h3, h4, h5, h6, h7, h8, h9⟩ := hop
    rw [if_neg h1, if_neg h2, if_neg h3, if_neg h4, if_neg h5, if_neg h6, if_neg h7, if_neg h8, if_neg h9,
      if_neg h1, if_neg h2, if_neg h3, if_neg h4, if_neg h5, if_neg h6, if_neg h7, if_neg h8]
    rw [if_neg]
    rintro (h | h)
    · cases h
    · exact h2 h.1

/-- C45: whatever the operation, its arguments and its outcome, all other variables keep their values, and the result
is 0 or an exception. -/
theorem C45_others (sys : Sys) (op name value : Str) (allowEmpty : Bool) (env : Environ) :
    (∀ m, m ≠ name → Dict.get? (envvarOp sys op name value allowEmpty env).2 m = Dict.get? env m) ∧
    ((envvarOp sys op name value allowEmpty env).1 = .ok 0 ∨
     (envvarOp sys op name value allowEmpty env).1 = .exc .valueError ∨
     (envvarOp sys op name value allowEmpty env).1 = .exc .ioError) := by
  have hx := (expands_iff env value _).2 rfl
  obtain ⟨ch, hd, _⟩ := C45_demand (sys.which env (expandvars env value)) op (Dict.get? env name) (expandvars env value)
  have h1 := C45_exact sys hx hd
  have main : (∀ m, m ≠ name → Dict.get? (envvarOp sys op name value true env).2 m = Dict.get? env m) ∧
    ((envvarOp sys op name value true env).1 = .ok 0 ∨
     (envvarOp sys op name value true env).1 = .exc .valueError ∨
     (envvarOp sys op name value true env).1 = .exc .ioError) := by
    generalize envvarOp sys op name value true env = r at h1
    cases ch with
    | keep => cases h1; exact ⟨fun _ _ => rfl, .inl rfl⟩
    | refuse => cases h1; exact ⟨fun _ _ => rfl, .inr (.inl rfl)⟩
    | unset =>
      obtain ⟨e, rfl, h⟩ := h1
      exact ⟨h.2, .inl rfl⟩
    | write y =>
      by_cases hv : ValidName name ∧ Char.ofNat 0 ∉ y
      · obtain ⟨e, rfl, h⟩ := h1.1 hv
        exact ⟨h.2, .inl rfl⟩
      · by_cases hb : '=' ∈ name ∨ Char.ofNat 0 ∈ name ∨ Char.ofNat 0 ∈ y
        · rw [h1.2.1 hb]; exact ⟨fun _ _ => rfl, .inr (.inl rfl)⟩
        · have h0 : name = [] := Classical.byContradiction fun h0 =>
            hv ⟨⟨h0, fun h => hb (.inl h), fun h => hb (.inr (.inl h))⟩, fun h => hb (.inr (.inr h))⟩
          rw [h1.2.2 ⟨h0, fun h => hb (.inr (.inr h))⟩]; exact ⟨fun _ _ => rfl, .inr (.inr rfl)⟩
  cases allowEmpty with
  | true => exact main
  | false =>
    have h2 := C45_no_empty sys hx hd
    by_cases hc : value = [] ∨ ch = .write [] ∨ op = py!"set_if_empty" ∧ expandvars env value = []
    · rw [h2.1 hc]; exact ⟨fun _ _ => rfl, .inr (.inl rfl)⟩
    · rw [h2.2 hc]; exact main

/-- C45: after `remove_path_entry` of a non-empty text (without references) the variable, if it was set, is the list
of its former entries other than that text, in their order; that text is not an entry any more. -/
theorem C45_entry_gone (sys : Sys) {env : Environ} {name x : Str} {es : List Str} (hn : ValidName name)
    (hx0 : x ≠ []) (hx : '$' ∉ x) (hne : es ≠ []) (hes : ∀ e ∈ es, ':' ∉ e) (hnul : ∀ e ∈ es, Char.ofNat 0 ∉ e)
    (hv : Dict.get? env name = some (joinStr py!":" es)) :
    ∃ env', envvarOp sys py!"remove_path_entry" name x true env = (.ok 0, env') ∧
      Becomes env name (some (joinStr py!":" (es.filter fun e => decide (e ≠ x)))) env' ∧
      ∀ es', es' ≠ [] → (∀ e ∈ es', ':' ∉ e) → Dict.get? env' name = some (joinStr py!":" es') → x ∉ es' := by
  have hX := (expands_iff env x x).2 (by rw [expandvars, if_neg hx])
  have hd : Demand (sys.which env x) py!"remove_path_entry" (Dict.get? env name) x
      (.write (joinStr py!":" (es.filter fun e => decide (e ≠ x)))) := by
    rw [hv]; exact .entry hne hes
  have h0 : ∀ l : List Str, (∀ e ∈ l, Char.ofNat 0 ∉ e) → Char.ofNat 0 ∉ joinStr py!":" l := by
    intro l hl
    induction l with
    | nil => exact List.not_mem_nil
    | cons a l ih =>
      cases l with
      | nil => exact hl a (.head _)
      | cons b l =>
        rw [joinStr_cons_cons]
        intro h
        rcases List.mem_append.1 h with h | h
        · rcases List.mem_append.1 h with h | h
          · exact hl a (.head _) h
          · revert h; decide
        · exact ih (fun e he => hl e (.tail _ he)) h
  obtain ⟨env', h1, h2⟩ := (C45_exact sys hX hd).1 ⟨hn, h0 _ fun e he => hnul e (List.mem_filter.1 he).1⟩
  refine ⟨env', h1, h2, fun es' hne' hes' hj hmem => ?_⟩
  have hj : joinStr py!":" (es.filter fun e => decide (e ≠ x)) = joinStr py!":" es' := by
    have := h2.1.symm.trans hj
    exact Option.some.inj this
  have hs := congrArg (splitChar ':') hj
  rw [splitChar_joinStr hne' hes'] at hs
  by_cases hf : es.filter (fun e => decide (e ≠ x)) = []
  · rw [hf] at hs
    rw [← hs] at hmem
    exact hx0 (by simpa [joinStr, splitChar] using hmem)
  · rw [splitChar_joinStr hf (fun e he => hes e (List.mem_filter.1 he).1)] at hs
    rw [← hs] at hmem
    simpa using (List.mem_filter.1 hmem).2

/-- The environment of the examples. -/
def exampleEnviron : Environ :=
  [(py!"HOME", py!"/home/u"), (py!"PATH", py!"/bin:/opt/x:/usr/bin:/opt/x"), (py!"EMPTY", [])]

def exampleSys : Sys where
  which _ x := if x = py!"cc" then some py!"/usr/bin/cc" else none
  module ws := fun e => (.ok (if ws.head? = some py!"swap" then 1 else 0), Dict.set e py!"LOADED" (joinStr py!" " ws))
  bashHeader := py!"# bash"
  pythonHeader := py!"# python"

/-- The hypotheses of C45 are met: an append with a reference. -/
example : Expands exampleEnviron py!"${HOME}/bin" py!"/home/u/bin" ∧
    Demand (exampleSys.which exampleEnviron py!"/home/u/bin") py!"append" (Dict.get? exampleEnviron py!"PATH")
      py!"/home/u/bin" (.write py!"/bin:/opt/x:/usr/bin:/opt/x:/home/u/bin") ∧
    ValidName py!"PATH" :=
  ⟨(expands_iff _ _ _).2 (by decide +kernel), .append, by decide, by decide, by decide⟩

example : (envvarOp exampleSys py!"append" py!"PATH" py!"${HOME}/bin" true exampleEnviron).1 = .ok 0 ∧
    Dict.get? (envvarOp exampleSys py!"append" py!"PATH" py!"${HOME}/bin" true exampleEnviron).2 py!"PATH" =
      some py!"/bin:/opt/x:/usr/bin:/opt/x:/home/u/bin" := by decide +kernel

/-- C45_entry_gone: an entry that occurs twice. -/
example : Dict.get? (envvarOp exampleSys py!"remove_path_entry" py!"PATH" py!"/opt/x" true exampleEnviron).2 py!"PATH" =
    some py!"/bin:/usr/bin" := by decide +kernel

/-- A strict call: `EMPTY` is refused as a value, the default accepts it. -/
example : envvarOp exampleSys py!"set" py!"X" py!"$EMPTY" false exampleEnviron = (.exc .valueError, exampleEnviron) ∧
    Dict.get? (envvarOp exampleSys py!"set" py!"X" py!"$EMPTY" true exampleEnviron).2 py!"X" = some [] := by
  decide +kernel

end CPE.Props
