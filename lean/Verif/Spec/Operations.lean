import Verif.Spec.Dispatch
/-
Specification for the list of known operations (C38).
-/
namespace CPE.Spec

/-- An operation as it is written in the list: underscores shown as dashes. -/
def shown (op : Str) : Str := op.map fun c => if c = '_' then '-' else c

/-- The order in which Python compares strings, character by character. -/
inductive NameBefore : Str → Str → Prop
  | nil (t) : NameBefore [] t
  | less {a b s t} : a.toNat < b.toNat → NameBefore (a :: s) (b :: t)
  | same {s t} (a) : NameBefore s t → NameBefore (a :: s) (a :: t)

/-- `name` is the method, public or private, for the operation `op`, which is none of the two hooks. -/
def MethodFor (name op : Str) : Prop :=
  (name = py!"handler_" ++ op ∨ name = py!"_handler_" ++ op) ∧ op ≠ py!"initialize" ∧ op ≠ py!"finalize"

/-- The operations of a list of methods, in the order of the methods, as they are shown. -/
inductive OperationsOf : List Str → List Str → Prop
  | nil : OperationsOf [] []
  | take {name op names ops} : MethodFor name op → OperationsOf names ops → OperationsOf (name :: names) (shown op :: ops)
  | skip {name names ops} : (∀ op, ¬ MethodFor name op) → OperationsOf names ops → OperationsOf (name :: names) ops

end CPE.Spec
