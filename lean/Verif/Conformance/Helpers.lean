import Verif.Model.EventText
import Verif.Model.HandlerParameters
/-
Conformance with test_Debuggable.py, test_ExceptionControl.py, test_TypedProperty.py and test_HandlerParameters.py in
src/configparserenhanced/unittests: what these tests do and expect, evaluated on the model. These are tests of the
transcription, not proofs of properties.
-/
namespace CPE.Conformance.Helpers

/-! ### test_Debuggable.py -/

/-- `debug_level` after an assignment. -/
def levelAfter (v : Int) : Nat := (DbgState.setLevel (.int v) {}).2.getLevel.1

/-- test_Debuggable.py:109 test_Debuggable_property_debug_level -/
example : ({} : DbgState).getLevel.1 = 0 ∧ levelAfter 1 = 1 ∧ levelAfter 5 = 5 ∧ levelAfter 100 = 100 ∧ levelAfter 0 = 0 ∧
    levelAfter (-1) = 0 := by decide

/-- What is printed at a debug level. -/
def prints (level : Option Nat) (n : Int) (msg ending : Str) (usePrefix : Bool) : Str :=
  ((DbgState.debugMessage n msg ending usePrefix { level := level }).1).getD []

/-- test_Debuggable.py:141 test_Debuggable_method_debug_message -/
example : prints none 0 py!"This is a test message!" py!"\n" true = py!"This is a test message!\n" ∧
    prints none 1 py!"This is a test message!" py!"\n" true = [] ∧
    prints (some 3) 3 py!"This is a test message!" py!"\n" true = py!"[D-3] This is a test message!\n" ∧
    prints (some 2) 0 py!"A" [] false ++ prints (some 2) 1 py!"B" [] false ++ prints (some 2) 2 py!"C" [] false ++
      prints (some 2) 3 py!"D" [] false ++ prints (some 2) 4 py!"E" [] false = py!"ABC" := by decide +kernel

/-! ### test_ExceptionControl.py -/

/-- `exception_control_level` after an assignment. -/
def controlAfter (v : Int) : Nat := (ECState.setLevel (.int v) {}).2.getLevel.1

/-- test_ExceptionControl.py:108 test_ExceptionControl_property_exception_control_level -/
example : [-1, 0, 1, 2, 3, 4, 5, 6].map controlAfter = [0, 0, 1, 2, 3, 4, 5, 5] := by decide

/-- The events of the tests, in their order. -/
def events : List Str := [py!"SILENT", py!"WARNING", py!"MINOR", py!"SERIOUS", py!"CRITICAL", py!"CATASTROPHIC"]

/-- A call stack: the caller and the method itself. -/
def stack : List Str := [py!"  File \"test.py\", line 1, in event\n    self.event()\n", py!"  File \"ExceptionControl.py\", line 280\n"]

/-- What one event does. -/
inductive Does where
  | raises | nothing | prints (t : Str)
  deriving DecidableEq

/-- Raised, or printed. -/
def does (r : (Out Unit × Str) × ECState) : Option Does :=
  match r.1 with
  | (.exc .valueError, []) => some .raises
  | (.ok (), []) => some .nothing
  | (.ok (), t) => some (.prints t)
  | _ => none

/-- Whether `x` is in `t`. -/
def within (x : Str) : Str → Bool
  | [] => x.isEmpty
  | c :: t => x.isPrefixOf (c :: t) || within x t

/-- The events of a test, each on the object in the given state. -/
def each (s : ECState) (msg : Option Str) : List (Option Does) :=
  events.map fun n => does (Notes.event n (.cls .valueError py!"ValueError") msg stack s)

/-- `x` for each event that raises, `-` for each that does nothing, `?` for a text without `!! EXCEPTION SKIPPED`, `m` for one
with it and with `Message`, `!` for one with it and without. -/
def signs (l : List (Option Does)) : Str := l.map fun
  | none => '?'
  | some .raises => 'x'
  | some .nothing => '-'
  | some (.prints t) =>
    if within py!"!! EXCEPTION SKIPPED" t then (if within py!"Message    :" t then 'm' else '!') else '?'

/-- test_ExceptionControl.py:158 test_ExceptionControl_method_exception_control_event: the default level, and the levels 0 to 5. -/
example : signs (each {} (some py!"message text")) = py!"-mxxxx" ∧
    [0, 1, 2, 3, 4, 5].map (fun n => signs (each { level := some n } (some py!"message text"))) =
      [py!"-----x", py!"-mmmmx", py!"-mmmxx", py!"-mmxxx", py!"-mxxxx", py!"xxxxxx"] := by decide +kernel

/-- test_ExceptionControl.py:369 test_ExceptionControl_method_exception_control_event_nomsg -/
example : [1, 5].map (fun n => signs (each { level := some n } none)) = [py!"-!!!!x", py!"xxxxxx"] := by decide +kernel

/-- test_ExceptionControl.py:449 test_ExceptionControl_method_exception_control_event_badexception -/
example : ∀ n ∈ [0, 1, 2, 3, 4, 5], ∀ e ∈ events,
    (Notes.event e .other (some py!"message text") stack { level := some n }).1 = (.exc .typeError, []) := by decide +kernel

/-- test_ExceptionControl.py:500 test_ExceptionControl_method_exception_control_event_silent_warnings -/
example : (ECState.setSilent (.other .typeError) {}).1 = .exc .typeError ∧ (ECState.setSilent (.bool true) {}).2.silent = some true ∧
    signs (each { silent := some true } (some py!"message text")) = py!"--xxxx" ∧
    [0, 1, 2, 3, 4, 5].map (fun n => signs (each { level := some n, silent := some true } (some py!"message text"))) =
      [py!"-----x", py!"-----x", py!"----xx", py!"---xxx", py!"--xxxx", py!"xxxxxx"] := by decide +kernel

/-- The compact text of an event. -/
def compactOf (n : Str) : Option Does :=
  some (.prints (py!"!! EXCEPTION SKIPPED (" ++ n ++ py!" : ValueError) @ File \"test.py\", line 1, in event\n"))

/-- test_ExceptionControl.py:751 test_ExceptionControl_method_exception_control_event_compact_warnings -/
example : (ECState.setCompact (.other .typeError) {}).1 = .exc .typeError ∧ (ECState.setCompact (.bool true) {}).2.compact = some true ∧
    signs (each { compact := some true } (some py!"message text")) = py!"-!xxxx" ∧
    each { level := some 0, compact := some true } (some py!"message text") =
      [some .nothing, some .nothing, some .nothing, some .nothing, some .nothing, some .raises] ∧
    each { level := some 1, compact := some true } (some py!"message text") =
      [some .nothing, compactOf py!"WARNING", compactOf py!"MINOR", compactOf py!"SERIOUS", compactOf py!"CRITICAL", some .raises] ∧
    each { level := some 3, compact := some true } (some py!"message text") =
      [some .nothing, compactOf py!"WARNING", compactOf py!"MINOR", some .raises, some .raises, some .raises] ∧
    each { level := some 5, compact := some true } (some py!"message text") = List.replicate 6 (some .raises) := by decide +kernel

/-! ### test_TypedProperty.py -/

/-- The values of these tests. -/
inductive Val where
  | none | int (i : Int) | str (s : Str) | float | dict
  deriving DecidableEq

/-- `typed_property("data", expected_type=int, default=None)` -/
def intProp : TPConfig Val where
  isType v := match v with | .int _ => true | _ => false
  default := some .none
  factory := some (.ok .none)
  reqAssign := false
  cast := none
  transform := .none
  validator := .none

/-- Operations, one after the other: what they give. -/
def results (c : TPConfig Val) : TPState Val → List (TPOp Val) → List (Except PyExc (Option Val))
  | _, [] => []
  | s, .get :: ops => (match (c.get s).1 with | .ok v => .ok (some v) | .exc e => .error e | .diverge => .error .runtimeError) ::
      results c (c.get s).2 ops
  | s, .set v :: ops => (match (c.set v s).1 with | .ok _ => .ok none | .exc e => .error e | .diverge => .error .runtimeError) ::
      results c (c.set v s).2 ops
  | s, .del :: ops => .ok none :: results c (TPConfig.del s).2 ops

/-- test_TypedProperty.py:109 test_TypedProperty_typed_propertry_with_default -/
example : results intProp {} [.get, .set (.int 100), .get, .set .none] =
    [.ok (some .none), .ok none, .ok (some (.int 100)), .error .typeError] := by rfl

/-- test_TypedProperty.py:135 test_TypedProperty_req_assign_before_use -/
example : results { intProp with reqAssign := true } {} [.get, .set (.int 1), .get] =
    [.error .unboundLocalError, .ok none, .ok (some (.int 1))] := by rfl

/-- test_TypedProperty.py:153 test_TypedProperty_wrong_type -/
example : results intProp {} [.set .float] = [.error .typeError] := by rfl

/-- test_TypedProperty.py:169 test_TypedProperty_validator, 191 test_TypedProperty_validator_must_be_callable -/
example : results { intProp with validator := .fn fun v => match v with | .int i => .ok (decide (100 ≤ i)) | _ => .error .typeError } {}
      [.set (.int 100), .set (.int 99), .get] = [.ok none, .error .valueError, .ok (some (.int 100))] ∧
    results { intProp with validator := .notCallable } {} [.set (.int 100)] = [.error .typeError] := ⟨rfl, rfl⟩

/-- test_TypedProperty.py:207 test_TypedProperty_deleter -/
example : (TPOp.run intProp {} [.get, .set (.int 100)]).value = some (.int 100) ∧
    (TPOp.run intProp {} [.get, .set (.int 100)]).isSet = some true ∧
    (TPOp.run intProp {} [.get, .set (.int 100), .del]).value = none ∧
    (TPOp.run intProp {} [.get, .set (.int 100), .del]).isSet = none := ⟨rfl, rfl, rfl, rfl⟩

/-- Into the range 0 to 5. -/
def range05 : Callable Val Val := .fn fun v => match v with | .int i => .ok (.int (min 5 (max 0 i))) | _ => .error .typeError

/-- test_TypedProperty.py:238 test_TypedProperty_transform, 264 test_TypedProperty_transform_with_internal_type,
292 test_TypedProperty_transform_is_callable -/
example : results { intProp with transform := range05 } {} [.set (.int 100), .get, .set (.int (-9)), .get] =
      [.ok none, .ok (some (.int 5)), .ok none, .ok (some (.int 0))] ∧
    results { intProp with transform := range05, cast := some .ok } {} [.set (.int 100), .get, .set (.int (-9)), .get] =
      [.ok none, .ok (some (.int 5)), .ok none, .ok (some (.int 0))] ∧
    results { intProp with transform := .notCallable } {} [.set (.int 100)] = [.error .typeError] := ⟨rfl, rfl, rfl⟩

/-- test_TypedProperty.py:308 test_TypedProperty_default: `typed_property("data")` takes int and str. -/
example : results { intProp with default := none, isType := fun v => match v with | .int _ => true | .str _ => true | _ => false } {}
    [.get, .set (.int 1), .get, .set (.str py!"a"), .get, .set .none] =
    [.ok (some .none), .ok none, .ok (some (.int 1)), .ok none, .ok (some (.str py!"a")), .error .typeError] := by rfl

/-- test_TypedProperty.py:333 test_TypedProperty_default_factory, 354 test_TypedProperty_default_factory_is_callable -/
example : results { intProp with default := none, factory := some (.ok .dict) } {} [.get] = [.ok (some .dict)] ∧
    results { intProp with default := none, factory := none } {} [.get] = [.error .typeError] := ⟨rfl, rfl⟩

/-! ### test_HandlerParameters.py -/

/-- What a new object has in a slot, and what an assignment gives. -/
def fieldDefault (f : HPField) : Out HPVal := (f.config.get {}).1
def fieldSet (f : HPField) (v : HPVal) : Out Unit × Option HPVal := ((f.config.set v {}).1, (f.config.set v {}).2.value)

/-- test_HandlerParameters.py:106 test_HandlerParameters_property_section_root -/
example : fieldDefault .sectionRoot = .ok .none ∧ (fieldSet .sectionRoot .none).1 = .exc .typeError := ⟨rfl, rfl⟩

/-- test_HandlerParameters.py:122 test_HandlerParameters_property_raw_option -/
example : fieldDefault .rawOption = .ok (.tuple [none, none]) ∧ (fieldSet .rawOption .none).1 = .exc .typeError ∧
    (fieldSet .rawOption (.tuple [])).1 = .exc .valueError ∧ (fieldSet .rawOption (.tuple [some py!"1"])).1 = .exc .valueError ∧
    (fieldSet .rawOption (.tuple [some py!"1", some py!"2", some py!"3"])).1 = .exc .valueError ∧
    fieldSet .rawOption (.tuple [none, none]) = (.ok (), some (.tuple [none, none])) := ⟨rfl, rfl, rfl, rfl, rfl, rfl⟩

/-- What an operation on a new object gives, after others. -/
def slotAfter (ops : List HPOp) (op : HPOp) : Except PyExc HPContent := (op.exec (HPOp.run {} ops)).1

/-- test_HandlerParameters.py:151 test_HandlerParameters_property_data_shared, 179 test_HandlerParameters_property_data_internal
(a list stands for what is not a dict) -/
example : ∀ s ∈ [HPSlot.shared, .internal], slotAfter [] (.read 0 s) = .ok (.dict []) ∧
    slotAfter [] (.assign 0 s (.list [])) = .error .typeError ∧
    slotAfter [.assign 0 s (.dict [(py!"data_shared_test", py!"True")])] (.read 0 s) = .ok (.dict [(py!"data_shared_test", py!"True")]) := by
  intro s hs
  simp only [List.mem_cons, List.not_mem_nil, or_false] at hs
  rcases hs with rfl | rfl <;> exact ⟨rfl, rfl, rfl⟩

/-- test_HandlerParameters.py:209 test_HandlerParameters_property_value -/
example : fieldDefault .value = .ok (.str []) ∧ (fieldSet .value .other).1 = .exc .typeError ∧
    fieldSet .value (.str py!"TEST") = (.ok (), some (.str py!"TEST")) ∧ fieldSet .value .none = (.ok (), some .none) :=
  ⟨rfl, rfl, rfl, rfl⟩

/-- test_HandlerParameters.py:234 test_HandlerParameters_property_handler_name, 250 test_HandlerParameters_property_op -/
example : fieldDefault .handlerName = .ok (.str []) ∧ (fieldSet .handlerName .none).1 = .exc .typeError ∧
    fieldDefault .op = .ok (.str []) ∧ (fieldSet .op .none).1 = .exc .typeError := ⟨rfl, rfl, rfl, rfl⟩

/-- test_HandlerParameters.py:267 test_HandlerParameters_property_params -/
example : slotAfter [] (.read 0 .params) = .ok (.list []) ∧ slotAfter [] (.assign 0 .params (.dict [])) = .error .typeError ∧
    slotAfter [.assign 0 .params (.list [py!"1", py!"2", py!"3"])] (.read 0 .params) = .ok (.list [py!"1", py!"2", py!"3"]) :=
  ⟨rfl, rfl, rfl⟩

end CPE.Conformance.Helpers
