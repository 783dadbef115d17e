import Verif.Model.Parser
/-
Specification of a parse: the file is *unrolled* into a flat list of events, and the events are
*replayed*. Nothing here mentions the functions of the parser model; the only model notions used are the
data types, what the ini file contains (`Cfg`), and the standard `strip`/`shlex.split`.
-/
namespace CPE.Spec

variable {δ ω : Type}

/-- A word that can name an operation: one or more of `[\w-]` (Python's `$` lets a final newline pass). -/
def OpWord (t : Str) : Prop :=
  ∃ body : Str, (t = body ∨ t = body ++ ['\n']) ∧ body ≠ [] ∧ ∀ c ∈ body, isWord c = true ∨ c = '-'

theorem opWord_iff_matches (t : Str) : OpWord t ↔ matchesOp t = true := by
  have nl : ∀ body : Str, (∀ c ∈ body, isWord c = true ∨ c = '-') → body.getLast? ≠ some '\n' := by
    intro body h hl
    have := h '\n' (List.mem_of_getLast? hl)
    revert this; decide
  unfold OpWord matchesOp
  constructor
  · rintro ⟨body, h | h, hne, hall⟩
    · subst h
      simp [nl t hall, hne]
      exact hall
    · subst h
      simp [hne]
      exact hall
  · intro h
    by_cases hl : t.getLast? = some '\n'
    · simp [hl] at h
      refine ⟨t.dropLast, .inr ?_, h.1, h.2⟩
      have hne : t ≠ [] := by rintro rfl; simp at hl
      have := List.dropLast_concat_getLast hne
      rw [List.getLast?_eq_some_getLast hne] at hl
      rw [Option.some.inj hl] at this
      exact this.symm
    · simp [hl] at h
      exact ⟨t, .inl rfl, h.1, h.2⟩

instance (t : Str) : Decidable (OpWord t) := decidable_of_iff _ (opWord_iff_matches t).symm

/-- The operation named by a word: dashes count as underscores. -/
def opName (t : Str) : Str := t.map fun c => if c = '-' then '_' else c

/-- The public method for an operation: the two hooks, or a method `handler_<op>` of the class. -/
def publicHandler (E : Env δ ω) (op : Str) : Option (Handler δ ω) :=
  if op = py!"initialize" then some E.hookInit
  else if op = py!"finalize" then some E.hookFinal
  else E.pub op

/-- Events of an unrolled parse. -/
inductive Ev (δ ω : Type) where
  | visit (s : Str)                             -- section `s` is entered
  | missing (s : Str)                           -- section `s` does not exist
  | store (k : Str) (v : Option Str)            -- an option nobody handles
  | call (h : Handler δ ω) (c : HCall)          -- a handler of the class is called
  | cycle (src dst : Str)                       -- `use dst` in `src` would close a cycle
  | ambiguous (op : Str)                        -- both a public and a private method exist
  | fail (e : PyExc)                            -- reading the option raises

/-- What one option of section `s` means: a list of events, or a link to another section. -/
inductive Meaning (δ ω : Type) where
  | events (evs : List (Ev δ ω))
  | link (target : Str)

/-- The meaning of option `key` of section `s` when `root` is being parsed. -/
def meaning (E : Env δ ω) (root s key : Str) : Meaning δ ω :=
  match E.cfg.value s key with
  | .error e => .events [.fail e]
  | .ok v =>
    let k := strip key
    let v := v.map fun x => stripQuotes (strip x)
    match shlexSplit k with
    | .error e => .events [.fail e]
    | .ok [] => .events [.fail .indexError]
    | .ok (word :: params) =>
      if OpWord word then
        let op := opName word
        let call (name : Str) (h : Handler δ ω) : Ev δ ω :=
          .call h { sectionName := s, sectionRoot := root, rawKey := some k, rawValue := v, op := op,
                    params := params, value := v, handlerName := name }
        match publicHandler E op, E.priv op with
        | none, none => .events [.store k v]
        | some h, none => .events [call (py!"handler_" ++ op) h]
        | some h, some _ => .events [.ambiguous op, call (py!"handler_" ++ op) h]
        | none, some (.user h) => .events [call (py!"_handler_" ++ op) h]
        | none, some .use =>
          match params with
          | [] => .events [.fail .indexError]
          | t :: _ => .link t
      else .events [.store k v]

/-- What is being unrolled: a section, or some options of a section, below the sections in `path`. -/
inductive Task where
  | sec (path : List Str) (s : Str)
  | opts (path : List Str) (s : Str) (keys : List Str)

/-- Depth-first unrolling: a link is replaced in place by the unrolling of its target, unless the target
is already being unrolled. -/
inductive Unrolls (E : Env δ ω) (root : Str) : Task → List (Ev δ ω) → Prop
  | missing {path s} : E.cfg.optionNames s = none →
      Unrolls E root (.sec path s) [.missing s]
  | sec {path s keys evs} : E.cfg.optionNames s = some keys →
      Unrolls E root (.opts (s :: path) s keys) evs →
      Unrolls E root (.sec path s) (.visit s :: evs)
  | nil {path s} : Unrolls E root (.opts path s []) []
  | plain {path s k ks evs rest} : meaning E root s k = .events evs →
      Unrolls E root (.opts path s ks) rest →
      Unrolls E root (.opts path s (k :: ks)) (evs ++ rest)
  | cyclic {path s k ks t rest} : meaning E root s k = .link t → t ∈ path →
      Unrolls E root (.opts path s ks) rest →
      Unrolls E root (.opts path s (k :: ks)) (.cycle s t :: rest)
  | link {path s k ks t sub rest} : meaning E root s k = .link t → t ∉ path →
      Unrolls E root (.sec path t) sub →
      Unrolls E root (.opts path s ks) rest →
      Unrolls E root (.opts path s (k :: ks)) (sub ++ rest)

/-- `Links E s t`: some option of section `s` is a `use` of `t`. -/
def Links (E : Env δ ω) (s t : Str) : Prop :=
  ∃ keys k, E.cfg.optionNames s = some keys ∧ k ∈ keys ∧ meaning E s s k = .link t

/-- `Reaches E s t`: `t` is reached from `s` by zero or more links. -/
inductive Reaches (E : Env δ ω) : Str → Str → Prop
  | refl (s) : Reaches E s s
  | step {s t u} : Links E s t → Reaches E t u → Reaches E s u

/-! ### Replaying -/

/-- An event of severity `ev` at the class' settings: raised from level `threshold` on, otherwise a
notice if the level is positive and warnings are not silenced. -/
def notify (E : Env δ ω) (ev : Event) (threshold : Nat) (e : PyExc) (c : Core δ ω) :
    Option PyExc × Core δ ω :=
  if threshold ≤ E.level then (some e, c)
  else if 0 < E.level ∧ E.silentWarnings = false then
    (none, { c with out := c.out ++ [⟨ev, e, E.compactWarnings⟩] })
  else (none, c)

/-- The policy for the value returned by a decorated handler. -/
def onReturn (E : Env δ ω) (r : Ret) (c : Core δ ω) : Option PyExc × Core δ ω :=
  match r with
  | .notInt => (some .typeError, c)
  | .int i =>
    if i = 0 then (none, c)
    else if i > 10 then (some .runtimeError, c)
    else notify E .warning 5 .runtimeError c

/-- One event. -/
def evStep (E : Env δ ω) (root : Str) (ev : Ev δ ω) (c : Core δ ω) : Option PyExc × Core δ ω :=
  match ev with
  | .visit s => (none, if (Dict.get? c.data s).isSome then c else { c with data := c.data ++ [(s, [])] })
  | .missing _ => (some .keyError, c)
  | .store k v =>
    let opts := (Dict.get? c.data root).getD []
    (none, { c with data := Dict.set c.data root (Dict.set opts k v) })
  | .call h hc =>
    let r := h.run hc c.shared c.self
    let c := { c with shared := r.2.1, self := r.2.2 }
    match r.1 with
    | .error e => (some e, c)
    | .ok v => if h.decorated then onReturn E v c else (none, c)
  | .cycle _ _ => notify E .warning 5 .valueError c
  | .ambiguous _ => notify E .serious 3 .ambiguousHandler c
  | .fail e => (some e, c)

/-- Replay a list of events, stopping at the first one that raises. -/
def replay (E : Env δ ω) (root : Str) : List (Ev δ ω) → Core δ ω → Option PyExc × Core δ ω
  | [], c => (none, c)
  | ev :: evs, c =>
    match evStep E root ev c with
    | (none, c') => replay E root evs c'
    | (some e, c') => (some e, c')

/-- The call of a hook (`handler_initialize` / `handler_finalize`) for a root section. -/
def hookCall (root name : Str) : HCall :=
  { sectionName := root, sectionRoot := root, handlerName := name }

/-- The unrolling of a whole parse of `root`: `handler_initialize`, the DEFAULT section if the file has
one, the root section, `handler_finalize`. -/
inductive ParseTrace (E : Env δ ω) (root : Str) : Bool → Bool → List (Ev δ ω) → Prop
  | mk {init fin evD evR} :
      (init = true ∧ E.cfg.hasSection E.defaultName = true →
        Unrolls E root (.sec [] E.defaultName) evD) →
      (¬ (init = true ∧ E.cfg.hasSection E.defaultName = true) → evD = []) →
      Unrolls E root (.sec [] root) evR →
      ParseTrace E root init fin
        ((if init then [.call E.hookInit (hookCall root py!"handler_initialize")] else []) ++ evD ++ evR ++
         (if fin then [.call E.hookFinal (hookCall root py!"handler_finalize")] else []))

/-- An outcome from an optional exception. -/
def outcome : Option PyExc → Out Unit
  | none => .ok ()
  | some e => .exc e

end CPE.Spec
