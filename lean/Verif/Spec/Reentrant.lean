import Verif.Spec.Unroll
import Verif.Model.Reentrant
/-
Specification of a parse whose handlers use the object. The events of a parse are those of the file (`ParseTrace`);
`Runs` says what happens when they are replayed, what a handler does, and what a call of a handler does, in terms of
what a client can see.
-/
namespace CPE.Re.Spec
open CPE CPE.Spec CPE.Re
variable {δ ω : Type}

/-- What can be seen of an object: enhanced data, shared data, attributes of the subclass, printed notices, the
remembered result and the exception control level. -/
structure View (δ ω : Type) extends Core δ ω where
  last : Option δ
  level : Nat

/-- What a client sees of a state. -/
def viewOf (s : State δ ω) : View δ ω := { toCore := s.toCore, last := s.lastResult, level := s.level }

/-- What is run. -/
inductive Job (δ ω : Type) where
  | events (root : Str) (evs : List (Ev δ ω))
  | handler (p : Prog δ ω)
  | parse (s : Str) (init fin : Bool)

/-- How it ends. -/
inductive Res (δ : Type) where
  | fine
  | returns (r : Ret)
  | gives (d : δ)
  | raises (e : PyExc)

/-- What a handler sees of a call of `parse_section`. -/
def seen : Res δ → Option (Except PyExc δ)
  | .gives d => some (.ok d)
  | .raises e => some (.error e)
  | _ => none

/-- The data collected for a section, if there are any. -/
def collected (v : View δ ω) (s : Str) : Except PyExc Options :=
  match Dict.get? v.data s with
  | some d => .ok d
  | none => .error .keyError

/-- One option written. -/
def written (v : View δ ω) (s k : Str) (x : Option Str) : View δ ω :=
  { v with data := Dict.set v.data s (Dict.set ((Dict.get? v.data s).getD []) k x) }

/-- An event that is not a call of a handler. -/
def Quiet : Ev δ ω → Prop
  | .call .. => False
  | _ => True

/-- What happens after a handler has returned `r`. -/
def afterwards (E : Env δ ω) (h : Handler δ ω) (r : Ret) (v : View δ ω) : Option PyExc × Core δ ω :=
  if h.decorated = true then onReturn { E with level := v.level } r v.toCore else (none, v.toCore)

/-- A class is its settings and method table `E` and the bodies `P` of its handlers. -/
inductive Runs (E : Env δ ω) (P : HCall → Prog δ ω) : Job δ ω → View δ ω → Res δ → View δ ω → Prop
  -- the events of a parse
  | nil {root v} : Runs E P (.events root []) v .fine v
  | event {root ev evs v c r v'} : Quiet ev → evStep { E with level := v.level } root ev v.toCore = (none, c) →
      Runs E P (.events root evs) { v with toCore := c } r v' → Runs E P (.events root (ev :: evs)) v r v'
  | raise {root ev evs v c e} : Quiet ev → evStep { E with level := v.level } root ev v.toCore = (some e, c) →
      Runs E P (.events root (ev :: evs)) v (.raises e) { v with toCore := c }
  | call {root h hc evs v x v1 c r v'} : Runs E P (.handler (P hc)) v (.returns x) v1 →
      afterwards E h x v1 = (none, c) →
      Runs E P (.events root evs) { v1 with toCore := c } r v' → Runs E P (.events root (.call h hc :: evs)) v r v'
  | callFails {root h hc evs v x v1 c e} : Runs E P (.handler (P hc)) v (.returns x) v1 →
      afterwards E h x v1 = (some e, c) → Runs E P (.events root (.call h hc :: evs)) v (.raises e) { v1 with toCore := c }
  | callRaises {root h hc evs v e v1} : Runs E P (.handler (P hc)) v (.raises e) v1 →
      Runs E P (.events root (.call h hc :: evs)) v (.raises e) v1
  -- a handler
  | returns {x v} : Runs E P (.handler (.done (.ok x))) v (.returns x) v
  | raises {e v} : Runs E P (.handler (.done (.error e))) v (.raises e) v
  | look {k v r v'} : Runs E P (.handler (k v.shared v.self)) v r v' → Runs E P (.handler (.look k)) v r v'
  | put {d o k v r v'} : Runs E P (.handler k) { v with shared := d, self := o } r v' →
      Runs E P (.handler (.put d o k)) v r v'
  | level {i : Int} {n : Nat} {k v r v'} : (i < 0 ∧ n = 0 ∨ 5 < i ∧ n = 5 ∨ i = n ∧ n ≤ 5) →
      Runs E P (.handler k) { v with level := n } r v' → Runs E P (.handler (.level i k)) v r v'
  | parses {s i f k v x y v1 r v'} : Runs E P (.parse s i f) v x v1 → seen x = some y →
      Runs E P (.handler (k y)) { v1 with shared := v.shared } r v' → Runs E P (.handler (.parse s i f k)) v r v'
  | gets {s k v r v'} : s ∈ v.checked → Runs E P (.handler (k (collected v s))) v r v' →
      Runs E P (.handler (.get s k)) v r v'
  | getParses {s k v d v1 r v'} : s ∉ v.checked →
      Runs E P (.parse s true true) { v with checked := setAdd v.checked s } (.gives d) v1 →
      Runs E P (.handler (k (collected v1 s))) { v1 with shared := v.shared } r v' → Runs E P (.handler (.get s k)) v r v'
  | getFails {s k v e v1 r v'} : s ∉ v.checked →
      Runs E P (.parse s true true) { v with checked := setAdd v.checked s } (.raises e) v1 →
      Runs E P (.handler (k (.error e))) { v1 with shared := v.shared } r v' → Runs E P (.handler (.get s k)) v r v'
  | sets {s key x k v r v'} : (E.cfg.hasSection s = true → s ∈ v.checked) →
      Runs E P (.handler (k (.ok ()))) (written v s key x) r v' → Runs E P (.handler (.set s key x k)) v r v'
  | setParses {s key x k v d v1 r v'} : E.cfg.hasSection s = true → s ∉ v.checked →
      Runs E P (.parse s true true) { v with checked := setAdd v.checked s } (.gives d) v1 →
      Runs E P (.handler (k (.ok ()))) { written v1 s key x with shared := v.shared } r v' →
      Runs E P (.handler (.set s key x k)) v r v'
  | setFails {s key x k v e v1 r v'} : E.cfg.hasSection s = true → s ∉ v.checked →
      Runs E P (.parse s true true) { v with checked := setAdd v.checked s } (.raises e) v1 →
      Runs E P (.handler (k (.error e))) { v1 with shared := v.shared } r v' → Runs E P (.handler (.set s key x k)) v r v'
  -- parse_section
  | noName {i f v} : Runs E P (.parse [] i f) v (.raises .valueError) v
  | parsed {s i f evs v v1} : s ≠ [] → ParseTrace E s i f evs →
      Runs E P (.events s evs) { v with shared := E.emptyShared, checked := setAdd v.checked s } .fine v1 →
      Runs E P (.parse s i f) v (.gives v1.shared) { v1 with last := some v1.shared }
  | failed {s i f evs v e v1} : s ≠ [] → ParseTrace E s i f evs →
      Runs E P (.events s evs) { v with shared := E.emptyShared, checked := setAdd v.checked s } (.raises e) v1 →
      Runs E P (.parse s i f) v (.raises e) v1

/-! ### Kinds of handlers -/

/-- The handler changes `data_shared` and its attributes, and nothing else of the object. -/
def plain (g : δ → ω → Except PyExc Ret × δ × ω) : Prog δ ω :=
  .look fun d o => .put (g d o).2.1 (g d o).2.2 (.done (g d o).1)

/-- The handler never calls `parse_section`; it looks up sections of `L` only (it may write to any section). -/
def Looks (L : List Str) : Prog δ ω → Prop
  | .done _ => True
  | .look k => ∀ d o, Looks L (k d o)
  | .put _ _ k => Looks L k
  | .level _ k => Looks L k
  | .parse .. => False
  | .get s k => s ∈ L ∧ ∀ r, Looks L (k r)
  | .set _ _ _ k => ∀ r, Looks L (k r)

/-- The handler neither parses section `s` nor writes to it; it may look it up. -/
def Spares (s : Str) : Prog δ ω → Prop
  | .done _ => True
  | .look k => ∀ d o, Spares s (k d o)
  | .put _ _ k => Spares s k
  | .level _ k => Spares s k
  | .parse t _ _ k => t ≠ s ∧ ∀ r, Spares s (k r)
  | .get _ k => ∀ r, Spares s (k r)
  | .set t _ _ k => t ≠ s ∧ ∀ r, Spares s (k r)

/-- The handler does not change `data_shared` or its attributes itself. -/
def NoPut : Prog δ ω → Prop
  | .done _ => True
  | .look k => ∀ d o, NoPut (k d o)
  | .put .. => False
  | .level _ k => NoPut k
  | .parse _ _ _ k => ∀ r, NoPut (k r)
  | .get _ k => ∀ r, NoPut (k r)
  | .set _ _ _ k => ∀ r, NoPut (k r)

end CPE.Re.Spec
