import Verif.Model.HandlerParameters
/-
Containers without identity: every slot of every object has a content of its own.
-/
namespace CPE.Spec

/-- The content of slot `s` of object `o`. -/
abbrev HPView := Nat → HPSlot → HPContent

/-- New objects: every slot has its default. -/
def HPView.new : HPView := fun _ s => s.default

/-- Change one slot of one object. -/
def HPView.put (v : HPView) (o : Nat) (s : HPSlot) (c : HPContent) : HPView :=
  fun o' s' => if o' = o ∧ s' = s then c else v o' s'

/-- What an operation does when every slot has a content of its own: assignment copies. -/
def viewStep (v : HPView) : HPOp → Except PyExc HPContent × HPView
  | .read o s => (.ok (v o s), v)
  | .mutate o s m => match m.apply (v o s) with
    | .error e => (.error e, v)
    | .ok c => (.ok (.list []), v.put o s c)
  | .assign o s c => if s.accepts c = true then (.ok (.list []), v.put o s c) else (.error .typeError, v)
  | .assignFrom o s o' s' => if s.accepts (v o' s') = true then (.ok (.list []), v.put o s (v o' s')) else (.error .typeError, v)
  | .del o s => (.ok (.list []), v.put o s s.default)

/-- A history. -/
def viewRun (v : HPView) (ops : List HPOp) : HPView := ops.foldl (fun v op => (viewStep v op).2) v

/-- The operation does not make two dict slots the same object. -/
def NoSharing : HPOp → Prop
  | .assignFrom o s o' s' => s = .params ∨ s' = .params ∨ (o = o' ∧ s = s')
  | _ => True

/-- The operation changes which container slot `s` of object `o` refers to. -/
def Rebinds (o : Nat) (s : HPSlot) : HPOp → Prop
  | .assign o' s' _ => o' = o ∧ s' = s
  | .assignFrom o' s' _ _ => o' = o ∧ s' = s
  | .del o' s' => o' = o ∧ s' = s
  | _ => False

/-- The object an operation writes to. -/
def WritesTo (o : Nat) : HPOp → Prop
  | .read _ _ => False
  | .mutate o' _ _ => o' = o
  | .assign o' _ _ => o' = o
  | .assignFrom o' _ _ _ => o' = o
  | .del o' _ => o' = o

/-- The values each slot may hold. -/
def AllowedIn : HPField → HPVal → Prop
  | .sectionRoot, v => v = .none ∨ ∃ s, v = .str s
  | .rawOption, v => ∃ a b, v = .tuple [a, b]
  | .op, v => ∃ s, v = .str s
  | .value, v => v = .none ∨ ∃ s, v = .str s
  | .handlerName, v => ∃ s, v = .str s

end CPE.Spec
