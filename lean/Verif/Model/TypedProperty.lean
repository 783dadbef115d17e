import Verif.Base
/-
Model of src/configparserenhanced/TypedProperty.py and HandlerParameters.py
-/
namespace CPE

/-- An optional callable argument of `typed_property`: absent (`None`), something that is not
callable, or a function that may raise. TypedProperty.py:59-63. -/
inductive Callable (α β : Type) where
  | none
  | notCallable
  | fn (f : α → Except PyExc β)

/-- The arguments of `typed_property` (TypedProperty.py:55-64). `V` is the type of Python values.
`isType v` is `isinstance(v, expected_type)` over the tuple of expected types (lines 120-125).
`default = none` is the SENTINEL (line 50, 58). Simplification: values are compared by content, so
`copy.deepcopy(default)` is the default itself and the factory always produces the same content
(object identity is treated in `Verif/Model/HandlerParameters`). -/
structure TPConfig (V : Type) where
  isType : V → Bool
  default : Option V
  factory : Option (Except PyExc V)      -- `none`: default_factory is not callable
  reqAssign : Bool
  cast : Option (V → Except PyExc V)
  transform : Callable V V
  validator : Callable V Bool

/-- The instance attributes `_name` and `_name_is_set` (lines 96-97); `none` = attribute absent. -/
structure TPState (V : Type) where
  value : Option V := none
  isSet : Option Bool := none

namespace TPConfig
variable {V : Type} (c : TPConfig V)

/-- TypedProperty.py:101-116 getter. -/
def get : M (TPState V) V := fun s =>
  let s := match s.isSet with
    | some _ => s
    | none => { s with isSet := some false }
  if c.reqAssign && s.isSet == some false then (.exc .unboundLocalError, s)
  else match s.value with
    | some v => (.ok v, s)
    | none =>
      match c.default with
      | some d => (.ok d, { s with value := some d })
      | none =>
        match c.factory with
        | none => (.exc .typeError, s)
        | some (.error e) => (.exc e, s)
        | some (.ok v) => (.ok v, { s with value := some v })

/-- `if internal_type is not None: value = internal_type(value)` (lines 130-131, 136-137). -/
def castValue (v : V) : Except PyExc V :=
  match c.cast with
  | none => .ok v
  | some f => f v

/-- The transform step (lines 133-139), followed by a second cast (lines 136-137). -/
def transformValue (v : V) : Except PyExc V :=
  match c.transform with
  | .none => .ok v
  | .notCallable => .error .typeError
  | .fn f =>
    match f v with
    | .error e => .error e
    | .ok v => c.castValue v

/-- The validation step (lines 141-149). -/
def validateValue (v : V) : Except PyExc Unit :=
  match c.validator with
  | .none => .ok ()
  | .notCallable => .error .typeError
  | .fn p =>
    match p v with
    | .error e => .error e
    | .ok true => .ok ()
    | .ok false => .error .valueError

/-- The checks and conversions of the setter (lines 119-149), before the attribute is written. -/
def convert (v : V) : Except PyExc V :=
  if c.isType v = false then .error .typeError
  else
    match c.castValue v with
    | .error e => .error e
    | .ok v =>
      match c.transformValue v with
      | .error e => .error e
      | .ok v =>
        match c.validateValue v with
        | .error e => .error e
        | .ok _ => .ok v

/-- TypedProperty.py:118-155 setter. -/
def set (v : V) : M (TPState V) Unit := fun s =>
  match c.convert v with
  | .error e => (.exc e, s)
  | .ok v => (.ok (), { s with value := some v, isSet := some true })

/-- TypedProperty.py:157-162 deleter. -/
def del : M (TPState V) Unit := fun _ => (.ok (), { value := none, isSet := none })

end TPConfig

/-- Client operations on a typed property. -/
inductive TPOp (V : Type) where
  | get
  | set (v : V)
  | del

/-- One operation; the object state afterwards (also when it raises). -/
def TPOp.step {V : Type} (c : TPConfig V) (s : TPState V) : TPOp V → TPState V
  | .get => (c.get s).2
  | .set v => (c.set v s).2
  | .del => (TPConfig.del s).2

/-- A history of operations. -/
def TPOp.run {V : Type} (c : TPConfig V) (s : TPState V) (ops : List (TPOp V)) : TPState V :=
  ops.foldl (TPOp.step c) s

end CPE
