import Verif.Spec.BashScript
import Verif.Spec.Literal
/-
Specification for texts that Bash reads between double quotes: what a text stands for there (Bash Reference Manual,
"Double Quotes"), and the texts that Bash and Python read alike.
-/
namespace CPE.SetEnv.Spec
open CPE.Spec

/-- Characters before which Bash drops a backslash. -/
def unescaped : Str := py!"$`\"\\"

/-- `Quoted env w x`: between double quotes, in environment `env`, Bash reads the text `w` as `x`. References to variables
that are not set stand for nothing. A backslash goes away before a character of `unescaped` and stays before any other.
There are no line ends, no NUL, no commands in backquotes and no references other than `$NAME` and `${NAME}`. -/
inductive Quoted (env : Environ) : Str → Str → Prop
  | nil : Quoted env [] []
  | plain {c s t} : c ∉ py!"$`\"\\\n\u0000" → Quoted env s t → Quoted env (c :: s) (c :: t)
  | braced {x s t} : Identifier x → Quoted env s t →
      Quoted env (py!"${" ++ x ++ py!"}" ++ s) ((Dict.get? env x).getD [] ++ t)
  | bare {x s t} : Identifier x → (∀ c r, s = c :: r → ¬ WordChar c) → Quoted env s t →
      Quoted env (py!"$" ++ x ++ s) ((Dict.get? env x).getD [] ++ t)
  | lone {s t} : (∀ c r, s = c :: r → AfterDollar c) → Quoted env s t → Quoted env ('$' :: s) ('$' :: t)
  | dropped {c s t} : c ∈ unescaped → Quoted env s t → Quoted env ('\\' :: c :: s) (c :: t)
  | kept {c s t} : c ∉ py!"$`\"\\\n\u0000" → Quoted env s t → Quoted env ('\\' :: c :: s) ('\\' :: c :: t)

/-- `Enclosed w`: between double quotes, the text `w` does not end them: a double quote and a backquote stand only after a
backslash, and there are no line ends and no NUL. -/
inductive Enclosed : Str → Prop
  | nil : Enclosed []
  | char {c s} : c ∉ py!"`\"\\\n\u0000" → Enclosed s → Enclosed (c :: s)
  | pair {c s} : c ∉ py!"\n\u0000" → Enclosed s → Enclosed ('\\' :: c :: s)

/-- `Neutral w x`: Bash and Python read the text `w`, which has no `$` in it, as `x`: a backslash is followed by a
backslash or a quote, where both drop it, or by a character that has no meaning after it in either language. -/
inductive Neutral : Str → Str → Prop
  | nil : Neutral [] []
  | char {c s t} : c ∉ py!"$`\"\\\n\r\u0000" → Neutral s t → Neutral (c :: s) (c :: t)
  | dropped {c s t} : c ∈ ['\\', '"'] → Neutral s t → Neutral ('\\' :: c :: s) (c :: t)
  | kept {c s t} : c ∉ escaping → c ∉ ['$', '`'] → Neutral s t → Neutral ('\\' :: c :: s) ('\\' :: c :: t)

/-- `Agreed sys tools env a`: in environment `env`, Bash and Python make the same of action `a`: its value is a text that
Bash reads as `x`, and that Python reads as a text in which the variables expand to `x`. -/
inductive Agreed (sys : Sys) (tools : Bash.Tools) (env : Environ) : Action → Prop
  | unset {a n} : EnvvarWords a [py!"unset", n] → VarName n → Agreed sys tools env a
  | envvar {a op n w x y} : EnvvarWords a [op, n, w] → VarName n → Quoted env w x → Literal w y → Expands env y x →
      PortableOp sys tools env op n x → Char.ofNat 0 ∉ x → (∀ v, Dict.get? env n = some v → Char.ofNat 0 ∉ v) →
      Agreed sys tools env a
  | module {a ws i env'} : ModuleWords a ws →
      (∀ w ∈ ws, w ≠ [] ∧ ∀ c ∈ w, WordChar c ∨ c ∈ ['-', '+', '.', ',', ':', '/', '@', '%', '=']) →
      sys.module ws env = (.ok i, env') → tools.module ws env = env' → Agreed sys tools env a

/-- Every action of the list is one on which both languages agree in the environment in which it is performed. -/
inductive AgreedRun (sys : Sys) (tools : Bash.Tools) : Environ → List Action → Prop
  | nil {env} : AgreedRun sys tools env []
  | cons {env a as m} : Agreed sys tools env a → Performs sys a m →
      (∀ i env', m env = (.ok i, env') → AgreedRun sys tools env' as) → AgreedRun sys tools env (a :: as)

end CPE.SetEnv.Spec
