import Verif.Spec.Apart
/-
C89: actions that can be performed again.
-/
namespace CPE.SetEnv.Spec

/-- The action sets one of the variables `names` to a value in which none of these names occurs, or unsets one of them. -/
inductive Fixed (names : List Str) : Action → Prop
  | set {n v} : n ∈ names → (∀ m ∈ names, ¬ m <:+: v) → Fixed names (.envvar py!"envvar_set" n (some v))
  | unset {n v} : n ∈ names → Fixed names (.envvar py!"envvar_unset" n v)

end CPE.SetEnv.Spec
