import Verif.Model.EventText
import Verif.Spec.ExceptionControl
import Verif.Spec.Messages
/-
What is shown when an event does not raise (C71).
-/
namespace CPE.Notes.Spec
open CPE CPE.Spec

/-- The events that can be shown, with the level at which each raises instead, as a number and as it is printed. -/
def shownEvents : List (Str × Nat × Str) :=
  [(py!"WARNING", 5, py!"5"), (py!"MINOR", 4, py!"4"), (py!"SERIOUS", 3, py!"3"), (py!"CRITICAL", 2, py!"2")]

/-- `Rows t ls`: the rows of a text, between its line feeds. -/
inductive Rows : Str → List Str → Prop
  | last {l} : '\n' ∉ l → Rows l [l]
  | more {l t ls} : '\n' ∉ l → Rows t ls → Rows (l ++ '\n' :: t) (l :: ls)

/-- `Printed ls t`: `t` is what one sees when the rows `ls` are printed. -/
inductive Printed : List Str → Str → Prop
  | nil : Printed [] []
  | cons {l ls t} : '\n' ∉ l → Printed ls t → Printed (l :: ls) (l ++ '\n' :: t)

/-- The rows for the message: none without a message. -/
inductive MessageRows : Option Str → List Str → Prop
  | none : MessageRows none []
  | some {m l ls} : Rows m (l :: ls) →
      MessageRows (some m) ((py!"!! Message    : " ++ l) :: ls.map (py!"!!            : " ++ ·))

/-- The rows for the call stack, outermost caller first. -/
inductive StackRows : List Str → List Str → Prop
  | nil : StackRows [] []
  | cons {frame t ls fs rs} : Trimmed White frame t → Rows t ls → StackRows fs rs →
      StackRows (frame :: fs) (ls.map (py!"!! " ++ ·) ++ rs)

/-- The line above and below. -/
def rule : Str := py!"!! ================================================================================"

/-- `LongNotice key exc msg hint callers ls`: the rows of the long notice. -/
def LongNotice (key exc : Str) (msg : Option Str) (hint : Str) (callers ls : List Str) : Prop :=
  ∃ ms ss, MessageRows msg ms ∧ StackRows callers ss ∧
    ls = [rule, py!"!! EXCEPTION SKIPPED", py!"!! Event Type : " ++ key, py!"!! Exception  : " ++ exc] ++ ms ++
      [py!"!!", py!"!! Call Stack:"] ++ ss ++
      [py!"!!", py!"!! Increase `exception_control_level` to " ++ hint ++ py!" to raise this exception.", rule]

/-- `ShortNotice key exc caller l`: the compact notice, with the first line of what the traceback says on the caller. -/
def ShortNotice (key exc caller l : Str) : Prop :=
  ∃ row rest t, KW.Spec.Lines caller (row :: rest) ∧ Trimmed White row t ∧
    l = py!"!! EXCEPTION SKIPPED (" ++ key ++ py!" : " ++ exc ++ py!") @ " ++ t

end CPE.Notes.Spec
