import Verif.Base
/-
Value interpolation, as a grammar: a value is a sequence of ordinary characters, `%%` and references
`%(name)s`.
-/
namespace CPE.Spec

/-- An item of a value. -/
inductive Item where
  | char (c : Char)
  | percent
  | ref (name : Str)
  deriving DecidableEq, Repr

/-- `Scans v items`: `v` is the text of `items`. -/
inductive Scans : Str → List Item → Prop
  | nil : Scans [] []
  | char {c s is} : c ≠ '%' → Scans s is → Scans (c :: s) (.char c :: is)
  | percent {s is} : Scans s is → Scans ('%' :: '%' :: s) (.percent :: is)
  | ref {name s is} : name ≠ [] → ')' ∉ name → Scans s is →
      Scans ('%' :: '(' :: name ++ ')' :: 's' :: s) (.ref name :: is)

/-- `Delivers look nested items r`: the items, one after the other, are delivered as `r`, where a reference to an
option whose value contains `%` is delivered by `nested`. -/
inductive Delivers (look : Str → Option (Option Str)) (nested : Str → Str → Prop) : List Item → Str → Prop
  | nil : Delivers look nested [] []
  | char {c is r} : Delivers look nested is r → Delivers look nested (.char c :: is) (c :: r)
  | percent {is r} : Delivers look nested is r → Delivers look nested (.percent :: is) ('%' :: r)
  | plain {name u is r} : look name = some (some u) → '%' ∉ u → Delivers look nested is r →
      Delivers look nested (.ref name :: is) (u ++ r)
  | nested {name u u' is r} : look name = some (some u) → '%' ∈ u → nested u u' → Delivers look nested is r →
      Delivers look nested (.ref name :: is) (u' ++ r)

/-- `Expands look d v r`: with the options given by `look`, and at most `d` levels of references, the text `v` is
delivered as `r`. -/
def Expands (look : Str → Option (Option Str)) : Nat → Str → Str → Prop
  | 0, _, _ => False
  | d + 1, v, r => ∃ items, Scans v items ∧ Delivers look (Expands look d) items r

/-- The value of option `a` refers to option `b`. -/
def RefersTo (look : Str → Option (Option Str)) (a b : Str) : Prop :=
  ∃ v items, look a = some (some v) ∧ Scans v items ∧ .ref b ∈ items

/-- A chain of one or more references from `a` to `b`. -/
inductive Chain (look : Str → Option (Option Str)) : Str → Str → Prop
  | one {a b} : RefersTo look a b → Chain look a b
  | more {a b c} : RefersTo look a b → Chain look b c → Chain look a c

end CPE.Spec
