import Verif.Model.LogPrint
/-
What the printed log looks like.
-/
namespace CPE.LogPrint.Spec
open CPE CPE.LogPrint

variable {β : Type}

/-- A logged dict: the one given, with its type; a type it had is overwritten, otherwise it comes last. -/
def typed (t : Str) (e : Entry β) : Entry β :=
  if ∃ p ∈ e, p.1 = py!"type" then e.map fun p => if p.1 = py!"type" then (p.1, .text t) else p
  else e ++ [(py!"type", .text t)]

/-- The debug level after a history that starts at level `d`. -/
def levelAfter (d : Nat) : List (Op β) → Nat
  | [] => d
  | .level k :: ops => levelAfter k ops
  | _ :: ops => levelAfter d ops

/-- The dicts that a history without resets logs, when it starts at level `d`: those that come at a positive level. -/
def recorded (d : Nat) : List (Op β) → List (Entry β)
  | [] => []
  | .level k :: ops => recorded k ops
  | .add t (some e) :: ops => if d = 0 then recorded d ops else typed t e :: recorded d ops
  | _ :: ops => recorded d ops

/-- Something is logged, or would be at a positive level. -/
def Touches : Op β → Prop
  | .add _ _ => True
  | _ => False

/-- The operation forgets the log. -/
def Forgets : Op β → Prop
  | .reset => True
  | _ => False

/-- Dicts have each key once. -/
def Fit : Op β → Prop
  | .add _ (some e) => (e.map Prod.fst).Nodup
  | _ => True

/-- `w` is the length of the longest key. -/
def Widest (es : List (Entry β)) (w : Nat) : Prop :=
  (∀ e ∈ es, ∀ p ∈ e, p.1.length ≤ w) ∧ (w = 0 ∨ ∃ e ∈ es, ∃ p ∈ e, p.1.length = w)

/-- A value as text. -/
def text (P : Shower β) : Val β → Str
  | .text s => s
  | .other v => P.value v

/-- A line about a key: four characters, the key filled up with blanks to `w` characters, a colon, the value. -/
def row (P : Shower β) (w : Nat) (lead tail : Str) (p : Str × Val β) : Str :=
  lead ++ p.1 ++ List.replicate (w - p.1.length) ' ' ++ py!" : " ++ text P p.2 ++ tail

/-- The lines about an entry: its type, its name, the other keys in their order, and an empty line. -/
def block (P : Shower β) (w : Nat) (e : Entry β) : List Str :=
  (e.filter fun p => p.1 = py!"type").map (row P w py!"    " py!" ") ++
  (e.filter fun p => p.1 = py!"name").map (row P w py!"--> " py!" ") ++
  (e.filter fun p => p.1 ≠ py!"type" ∧ p.1 ≠ py!"name").map (row P w py!"--> " []) ++ [[]]

/-- The lines about a log. -/
def page (P : Shower β) (w : Nat) (es : List (Entry β)) : List Str := py!"Loginfo:" :: (es.map (block P w)).flatten

/-- Lines as they are printed at a debug level. -/
def shown (d : Nat) (l : List Str) : List Str := if d = 0 then [] else l.map fun x => py!"[D-1] " ++ x ++ py!"\n"

/-- The dict for one event of a parse, the `i`-th of the log; `cycle`: the event before it was a cycle. -/
def dict (i : Nat) (cycle : Bool) : LogEntry → Entry Logged
  | .sectionEntry s => [(py!"name", .text s), (py!"type", .text py!"section-entry")]
  | .sectionExit s => [(py!"name", .text s), (py!"type", .text py!"section-exit")]
  | .keyValue k (some v) => [(py!"key", .text k), (py!"value", .text v), (py!"type", .text py!"section-key-value")]
  | .keyValue k none => [(py!"key", .text k), (py!"value", .other .none), (py!"type", .text py!"section-key-value")]
  | .operation op ps => [(py!"op", .text op), (py!"params", .other (.strs ps)), (py!"type", .text py!"section-operation")]
  | .handlerEntry n k v =>
    [(py!"name", .text n), (py!"entry", .other (.pair k v)), (py!"parameters", .other (.params i)),
     (py!"type", .text py!"handler-entry")]
  | .handlerExit n k v =>
    [(py!"name", .text n), (py!"entry", .other (.pair k v))] ++ (if cycle then [] else [(py!"parameters", .other (.params i))]) ++
     [(py!"type", .text py!"handler-exit")]
  | .cycleDetected a b => [(py!"sec-src", .text a), (py!"sec-dst", .text b), (py!"type", .text py!"cycle-detected")]

/-- The event is a cycle. -/
def isCycle : LogEntry → Bool
  | .cycleDetected _ _ => true
  | _ => false

/-- The dicts for the events of a parse. -/
def dicts (i : Nat) (cycle : Bool) : List LogEntry → List (Entry Logged)
  | [] => []
  | e :: l => dict i cycle e :: dicts (i + 1) (isCycle e) l

end CPE.LogPrint.Spec
