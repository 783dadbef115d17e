import Verif.Model.TypedProperty
/-
Model of src/configparserenhanced/HandlerParameters.py: the container slots with object identity, and the
other slots as typed properties.
-/
namespace CPE

/-- The slots that hold containers (HandlerParameters.py:88, 90, 91). -/
inductive HPSlot where
  | params | shared | internal
  deriving DecidableEq, Repr

/-- The content of a container. Simplification: the items are plain strings. -/
inductive HPContent where
  | dict (d : Dict Str Str)
  | list (l : List Str)
  deriving DecidableEq, Repr

/-- HandlerParameters.py:88-91: the default of a slot. -/
def HPSlot.default : HPSlot → HPContent
  | .params => .list []
  | .shared => .dict []
  | .internal => .dict []

/-- HandlerParameters.py:88-91: `isinstance` of the expected type. -/
def HPSlot.accepts : HPSlot → HPContent → Bool
  | .params, .list _ => true
  | .shared, .dict _ => true
  | .internal, .dict _ => true
  | _, _ => false

/-- An in-place mutation of a container: `c[k] = v` or `c.append(x)`. -/
inductive HPMut where
  | put (k v : Str)
  | push (x : Str)
  deriving DecidableEq, Repr

/-- What a mutation does to the content (TypeError: a list has no str keys; AttributeError: a dict has no append). -/
def HPMut.apply : HPMut → HPContent → Except PyExc HPContent
  | .put k v, .dict d => .ok (.dict (Dict.set d k v))
  | .put _ _, .list _ => .error .typeError
  | .push x, .list l => .ok (.list (l ++ [x]))
  | .push _, .dict _ => .error .attributeError

/-- Containers live in a heap; the attribute `_<slot>` of object `o` is a reference, `none` if absent. An object
`HandlerParameters()` starts with no attributes. -/
structure HPState where
  heap : List HPContent := []
  attr : Nat → HPSlot → Option Nat := fun _ _ => none

/-- A new container. -/
def HPState.alloc (st : HPState) (c : HPContent) : Nat × HPState :=
  (st.heap.length, { st with heap := st.heap ++ [c] })

/-- Write the attribute `_<s>` of object `o`. -/
def HPState.setAttr (st : HPState) (o : Nat) (s : HPSlot) (a : Option Nat) : HPState :=
  { st with attr := fun o' s' => if o' = o ∧ s' = s then a else st.attr o' s' }

/-- TypedProperty.py:101-116, getter: the default is deep-copied into a new container on the first read. -/
def HPState.getSlot (st : HPState) (o : Nat) (s : HPSlot) : Nat × HPState :=
  match st.attr o s with
  | some a => (a, st)
  | none => ((st.alloc s.default).1, (st.alloc s.default).2.setAttr o s (some (st.alloc s.default).1))

/-- TypedProperty.py:118-155, setter with a reference: `params` is converted by `list(value)`, which makes a new list;
the dict slots keep the very object. -/
def HPState.setSlot (st : HPState) (o : Nat) (s : HPSlot) (a : Nat) (c : HPContent) : Except PyExc Unit × HPState :=
  if s.accepts c = false then (.error .typeError, st)
  else match s with
    | .params => (.ok (), (st.alloc c).2.setAttr o s (some (st.alloc c).1))
    | _ => (.ok (), st.setAttr o s (some a))

/-- Client operations. -/
inductive HPOp where
  | read (o : Nat) (s : HPSlot)
  | mutate (o : Nat) (s : HPSlot) (m : HPMut)                     -- `o.s[k] = v`, `o.s.append(x)`
  | assign (o : Nat) (s : HPSlot) (c : HPContent)                 -- `o.s = {...}`
  | assignFrom (o : Nat) (s : HPSlot) (o' : Nat) (s' : HPSlot)    -- `o.s = o'.s'`
  | del (o : Nat) (s : HPSlot)
  deriving DecidableEq, Repr

/-- One operation: the content read, or the exception. Writing operations return the empty list. -/
def HPOp.exec (st : HPState) : HPOp → Except PyExc HPContent × HPState
  | .read o s =>
    let r := st.getSlot o s
    (.ok (r.2.heap[r.1]?.getD s.default), r.2)
  | .mutate o s m =>
    let r := st.getSlot o s
    match m.apply (r.2.heap[r.1]?.getD s.default) with
    | .error e => (.error e, r.2)
    | .ok c => (.ok (.list []), { r.2 with heap := r.2.heap.set r.1 c })
  | .assign o s c =>
    let r := st.alloc c
    let r' := r.2.setSlot o s r.1 c
    (r'.1.map fun _ => .list [], r'.2)
  | .assignFrom o s o' s' =>
    let r := st.getSlot o' s'
    let r' := r.2.setSlot o s r.1 (r.2.heap[r.1]?.getD s'.default)
    (r'.1.map fun _ => .list [], r'.2)
  | .del o s => (.ok (.list []), st.setAttr o s none)

/-- A history. -/
def HPOp.run (st : HPState) (ops : List HPOp) : HPState := ops.foldl (fun st op => (op.exec st).2) st

/-- Python values as far as the types of the slots tell them apart. -/
inductive HPVal where
  | none
  | str (s : Str)
  | tuple (l : List (Option Str))
  | list (l : List (Option Str))
  | other
  deriving DecidableEq, Repr

/-- HandlerParameters.py:85-92: the slots that are not containers. -/
inductive HPField where
  | sectionRoot | rawOption | op | value | handlerName
  deriving DecidableEq, Repr

/-- HandlerParameters.py:85-92: the arguments of `typed_property`, with `value_len_eq_2` (59-71) for raw_option. -/
def HPField.config : HPField → TPConfig HPVal
  | .sectionRoot =>
    { isType := fun v => match v with | .str _ => true | _ => false
      default := some .none, factory := none, reqAssign := false, cast := none, transform := .none, validator := .none }
  | .rawOption =>
    { isType := fun v => match v with | .tuple _ => true | _ => false
      default := some (.tuple [none, none]), factory := none, reqAssign := false, cast := none, transform := .none
      validator := .fn fun v => match v with
        | .tuple l => .ok (decide (l.length = 2))
        | .list l => .ok (decide (l.length = 2))
        | .str s => .ok (decide (s.length = 2))
        | _ => .error .typeError }
  | .op =>
    { isType := fun v => match v with | .str _ => true | _ => false
      default := some (.str []), factory := none, reqAssign := false, cast := none, transform := .none, validator := .none }
  | .value =>
    { isType := fun v => match v with | .str _ => true | .none => true | _ => false
      default := some (.str []), factory := none, reqAssign := false, cast := none, transform := .none, validator := .none }
  | .handlerName =>
    { isType := fun v => match v with | .str _ => true | _ => false
      default := some (.str []), factory := none, reqAssign := false, cast := none, transform := .none, validator := .none }

end CPE
