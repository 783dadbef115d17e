import Verif.Model.ExceptionControl
/-
Specification of ExceptionControl, from its documentation (class doc string, levels 0..5).
-/
namespace CPE.Spec

/-- The documented event names and the smallest `exception_control_level` at which each raises. -/
def documentedThreshold : List (Str × Event × Nat) :=
  [ (py!"SILENT", .silent, 5), (py!"WARNING", .warning, 5), (py!"MINOR", .minor, 4),
    (py!"SERIOUS", .serious, 3), (py!"CRITICAL", .critical, 2),
    (py!"CATASTROPHIC", .catastrophic, 0) ]

/-- The characters that stand for capital letters A to Z, and for which: the capital and the small letters, and the
characters outside ASCII that Python writes with capital letters of ASCII. -/
def letterForms : List (Char × Str) :=
  (py!"ABCDEFGHIJKLMNOPQRSTUVWXYZ").map (fun c => (c, [c])) ++
  (py!"abcdefghijklmnopqrstuvwxyz").zip ((py!"ABCDEFGHIJKLMNOPQRSTUVWXYZ").map fun c => [c]) ++
  [('ß', py!"SS"), ('ı', py!"I"), ('ſ', py!"S"), ('ﬀ', py!"FF"), ('ﬁ', py!"FI"), ('ﬂ', py!"FL"), ('ﬃ', py!"FFI"), ('ﬄ', py!"FFL"),
   ('ﬅ', py!"ST"), ('ﬆ', py!"ST")]

/-- `Spells name key`: `name` is a way to write `key`, a text of capital letters, in any letter case. -/
inductive Spells : Str → Str → Prop
  | nil : Spells [] []
  | cons {c u s k} : (c, u) ∈ letterForms → Spells s k → Spells (c :: s) (u ++ k)

/-- A name that spells no event. -/
def Unknown (name : Str) : Prop := ∀ key ev n, Spells name key → (key, ev, n) ∉ documentedThreshold

/-- The level a client sees: 4 until something is assigned. -/
def seenLevel (s : ECState) : Nat := s.level.getD 4
/-- The silent-warnings flag a client sees: False until something is assigned. -/
def seenSilent (s : ECState) : Bool := s.silent.getD false
/-- The compact-warnings flag a client sees. -/
def seenCompact (s : ECState) : Bool := s.compact.getD false

/-- Clamp to 0..5. -/
def clamp05 (i : Int) : Nat := if i < 0 then 0 else if 5 < i then 5 else i.toNat

/-- The int carried by an accepted assignment to `exception_control_level`. -/
def acceptedLevel : ECOp → Option Int
  | .setLevel (.int i) => some i
  | .setLevel (.numeric i) => some i
  | .setLevel (.bool b) => some (if b then 1 else 0)
  | _ => none

/-- The bool carried by an accepted assignment to the silent flag. -/
def acceptedSilent : ECOp → Option Bool
  | .setSilent (.bool b) => some b
  | _ => none

/-- The bool carried by an accepted assignment to the compact flag. -/
def acceptedCompact : ECOp → Option Bool
  | .setCompact (.bool b) => some b
  | _ => none

/-- The last accepted assignment of a history. -/
def lastAccepted {α : Type} (f : ECOp → Option α) (ops : List ECOp) : Option α :=
  ops.reverse.findSome? f

end CPE.Spec
