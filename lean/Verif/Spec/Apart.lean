import Verif.Spec.SetEnvironment
/-
Specification for the order of the actions of a section.
-/
namespace CPE.SetEnv.Spec

/-- Both have the same variables with the same values. -/
def SameVars (env env' : Environ) : Prop := ∀ m, Dict.get? env m = Dict.get? env' m

/-- What the system does depends on the variables only: the search of an executable on PATH, the `module` command on all of them. -/
structure Lawful (sys : Sys) : Prop where
  which : ∀ env env' x, Dict.get? env py!"PATH" = Dict.get? env' py!"PATH" → sys.which env x = sys.which env' x
  module : ∀ ws env env', SameVars env env' →
    (sys.module ws env).1 = (sys.module ws env').1 ∧ SameVars (sys.module ws env).2 (sys.module ws env').2

/-- Two actions on different variables, the name of neither occurring in the value given to the other, and neither on PATH if the
other searches an executable. -/
inductive Apart : Action → Action → Prop
  | mk {op1 n1 v1 op2 n2 v2} : n1 ≠ n2 → (∀ w ∈ v1, ¬ n2 <:+: w) → (∀ w ∈ v2, ¬ n1 <:+: w) →
      (op1 = py!"envvar_find_in_path" → n2 ≠ py!"PATH") → (op2 = py!"envvar_find_in_path" → n1 ≠ py!"PATH") →
      Apart (.envvar op1 n1 v1) (.envvar op2 n2 v2)

/-- The second list is the first one after changes of places, each of two neighbours that are apart. -/
inductive Rearranged (l : List Action) : List Action → Prop
  | refl : Rearranged l l
  | swap {pre a b post} : Rearranged l (pre ++ a :: b :: post) → Apart a b → Rearranged l (pre ++ b :: a :: post)

end CPE.SetEnv.Spec
