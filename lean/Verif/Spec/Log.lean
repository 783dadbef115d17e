import Verif.Model.Parser
/-
Well-nested logs.
-/
namespace CPE.Spec

/-- Well-nested logs: sections and handlers are closed in the opposite order of their opening; a `use` that
was cut at a cycle is recorded as entry, cycle, exit, exit. -/
inductive Nested : List LogEntry → Prop
  | nil : Nested []
  | append {a b} : Nested a → Nested b → Nested (a ++ b)
  | keyValue (k v) : Nested [.keyValue k v]
  | operation (op ps) : Nested [.operation op ps]
  | inSection (s) {inner} : Nested inner → Nested (.sectionEntry s :: inner ++ [.sectionExit s])
  | inHandler (n k v) {inner} : Nested inner → Nested (.handlerEntry n k v :: inner ++ [.handlerExit n k v])
  | cycle (n k v a b) : Nested [.handlerEntry n k v, .cycleDetected a b, .handlerExit n k v, .handlerExit n k v]

end CPE.Spec
