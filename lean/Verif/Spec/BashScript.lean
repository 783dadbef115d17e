import Verif.Model.BashScript
import Verif.Spec.SetEnvironment
/-
Specification for the generated Bash scripts: the actions on which Bash and Python are expected to agree, what it means
that they agree, and what the Bash function for path entries does instead.
-/
namespace CPE.SetEnv.Spec
open CPE.Spec

/-- A name of a variable that both languages accept: letters, digits and underscores, not starting with a digit. -/
def Identifier (n : Str) : Prop :=
  (∃ c t, n = c :: t ∧ c.isDigit = false) ∧ ∀ c ∈ n, WordChar c

/-- The names of the local variables of the functions in the header of a Bash script. -/
def helperNames : List Str :=
  [py!"op", py!"arg1", py!"arg2", py!"envvar", py!"message", py!"ENVVAR_NAME", py!"ENVVAR_VALUE", py!"substr",
   py!"to_remove", py!"new_value"]

/-- A variable that a script can work on. -/
def VarName (n : Str) : Prop := Identifier n ∧ n ∉ helperNames

/-- Characters that a Bash word in double quotes does not take as they are, `$` apart. -/
def badInQuotes : List Char := ['"', '\\', '`', '\n', '\r', Char.ofNat 0]

/-- Characters that may follow a `$` that stands for itself. -/
def AfterDollar (c : Char) : Prop := ¬ WordChar c ∧ c ∉ ['$', '?', '!', '-', '*', '@', '#', '(', '[', '\'', '"', '{']

/-- `Means env s t`: the text `s` means `t` in both languages: it has no special characters but references to variables
that are set (`$NAME` or `${NAME}`), and `t` has their values instead. -/
inductive Means (env : Environ) : Str → Str → Prop
  | nil : Means env [] []
  | plain {c s t} : c ≠ '$' → c ∉ badInQuotes → Means env s t → Means env (c :: s) (c :: t)
  | braced {x v s t} : Identifier x → Dict.get? env x = some v → Means env s t →
      Means env (py!"${" ++ x ++ py!"}" ++ s) (v ++ t)
  | bare {x v s t} : Identifier x → (∀ c r, s = c :: r → ¬ WordChar c) → Dict.get? env x = some v → Means env s t →
      Means env (py!"$" ++ x ++ s) (v ++ t)
  | lone {s t} : (∀ c r, s = c :: r → AfterDollar c) → Means env s t → Means env ('$' :: s) ('$' :: t)

/-- No white space, no pattern characters, no backslash. -/
def Unsplit (s : Str) : Prop := ∀ c ∈ s, c ∉ [' ', '\t', '\n', '*', '?', '[', '\\']

/-- `PortableOp sys tools env op n x`: both languages agree on operation `op` with argument `x` on variable `n`.
`remove_path_entry` is not among them. -/
inductive PortableOp (sys : Sys) (tools : Bash.Tools) (env : Environ) : Str → Str → Str → Prop
  | set {n x} : PortableOp sys tools env py!"set" n x
  | setIfEmpty {n x} : PortableOp sys tools env py!"set_if_empty" n x
  | append {n x} : x ≠ [] → PortableOp sys tools env py!"append" n x
  | prepend {n x} : x ≠ [] → PortableOp sys tools env py!"prepend" n x
  | assertNotEmpty {n x} : PortableOp sys tools env py!"assert_not_empty" n x
  | removeSubstr {n x v} : x ≠ [] → Unsplit x → (∀ c ∈ x, c ∉ ['.', ']', '^', '$', '#']) →
      Dict.get? env n = some v → Unsplit v → v.head? ≠ some '-' → PortableOp sys tools env py!"remove_substr" n x
  | findInPath {n x} : x ≠ [] → Unsplit x → x.head? ≠ some '-' → tools.which env x = sys.which env x →
      (∀ p, sys.which env x = some p → p.getLast? ≠ some '\n' ∧ Char.ofNat 0 ∉ p) →
      PortableOp sys tools env py!"find_in_path" n x

/-- `Portable sys tools env a`: in environment `env`, action `a` is one on which both languages agree: a variable both
can name, an argument that means the same in both, and an operation as above; or a module command with plain words,
if the `module` function of the shell does what the one of Python does. No variable has a NUL character in it. -/
inductive Portable (sys : Sys) (tools : Bash.Tools) (env : Environ) : Action → Prop
  | unset {a n} : EnvvarWords a [py!"unset", n] → VarName n → Portable sys tools env a
  | envvar {a op n w x} : EnvvarWords a [op, n, w] → VarName n → Means env w x → PortableOp sys tools env op n x →
      (∀ m v, Dict.get? env m = some v → Char.ofNat 0 ∉ v) → Portable sys tools env a
  | module {a ws i env'} : ModuleWords a ws →
      (∀ w ∈ ws, w ≠ [] ∧ ∀ c ∈ w, WordChar c ∨ c ∈ ['-', '+', '.', ',', ':', '/', '@', '%', '=']) →
      sys.module ws env = (.ok i, env') → tools.module ws env = env' → Portable sys tools env a

/-- Every action of the list is one on which both languages agree in the environment in which it is performed. -/
inductive PortableRun (sys : Sys) (tools : Bash.Tools) : Environ → List Action → Prop
  | nil {env} : PortableRun sys tools env []
  | cons {env a as m} : Portable sys tools env a → Does sys a m →
      (∀ i env', m env = (.ok i, env') → PortableRun sys tools env' as) → PortableRun sys tools env (a :: as)

/-- Two runs end alike: with the same environment, and both at their end, or both at a variable that was asserted not to
be empty (where Bash exits and Python raises ValueError). -/
def EndAlike {α β : Type} (bash : Out α × Environ) (python : Out β × Environ) : Prop :=
  bash.2 = python.2 ∧
    ((∃ a b, bash.1 = .ok a ∧ python.1 = .ok b) ∨
      (bash.1 = .exc (.user py!"exit") ∧ python.1 = .exc .valueError))

/-- `Thinned x es ks`: `ks` is `es` without the entries equal to `x`, but for those that directly follow an entry that
has been left out. -/
inductive Thinned (x : Str) : List Str → List Str → Prop
  | nil : Thinned x [] []
  | keep {e es ks} : e ≠ x → Thinned x es ks → Thinned x (e :: es) (e :: ks)
  | last : Thinned x [x] []
  | drop {e es ks} : Thinned x es ks → Thinned x (x :: e :: es) (e :: ks)

/-- Entries with a colon before and after each of them (`:` if there are none). -/
def fenced (ks : List Str) : Str := py!":" ++ (ks.map (· ++ py!":")).flatten

end CPE.SetEnv.Spec
