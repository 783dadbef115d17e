import Verif.Model.TypedProperty
/-
Specification of a typed property: which assignments are accepted, and what a history leaves behind.
-/
namespace CPE.Spec
variable {V : Type}

/-- The optional cast to the internal type turns `v` into `v'`. -/
def Casts (c : TPConfig V) (v v' : V) : Prop :=
  (c.cast = none ∧ v' = v) ∨ ∃ f, c.cast = some f ∧ f v = .ok v'

/-- The optional transform (followed by the cast) turns `v` into `v'`. -/
def Transforms (c : TPConfig V) (v v' : V) : Prop :=
  (c.transform = .none ∧ v' = v) ∨ ∃ f t, c.transform = .fn f ∧ f v = .ok t ∧ Casts c t v'

/-- The optional validator approves `v`. -/
def Validates (c : TPConfig V) (v : V) : Prop :=
  c.validator = .none ∨ ∃ p, c.validator = .fn p ∧ p v = .ok true

/-- Assigning `v` is accepted and stores `v'`. -/
def Accepts (c : TPConfig V) (v v' : V) : Prop :=
  c.isType v = true ∧ ∃ u, Casts c v u ∧ Transforms c u v' ∧ Validates c v'

/-- `Holds c h o`: after the history `h` (oldest operation first) on a new object, `o` is the stored
form of the last accepted assignment since the last delete, if there is one. -/
inductive Holds (c : TPConfig V) : List (TPOp V) → Option V → Prop
  | new : Holds c [] none
  | get {h o} : Holds c h o → Holds c (h ++ [.get]) o
  | accepted {h o v v'} : Holds c h o → Accepts c v v' → Holds c (h ++ [.set v]) (some v')
  | rejected {h o v} : Holds c h o → (¬ ∃ v', Accepts c v v') → Holds c (h ++ [.set v]) o
  | del {h o} : Holds c h o → Holds c (h ++ [.del]) none

/-- What a read must give when `o` is held. -/
def readOutcome (c : TPConfig V) : Option V → Out V
  | some v => .ok v
  | none =>
    if c.reqAssign then .exc .unboundLocalError
    else match c.default, c.factory with
      | some d, _ => .ok d
      | none, none => .exc .typeError
      | none, some (.ok v) => .ok v
      | none, some (.error e) => .exc e

end CPE.Spec
