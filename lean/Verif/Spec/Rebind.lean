import Verif.Spec.Resolve
/-
Specification of which dict a handler finds in `data_shared` (C80). The meaning of an option, its events and what an
event does are those of `Verif.Spec.Unroll`; `shared` is the reference in use. All it adds is where the reference goes
back to what it was: after a section that is used, after DEFAULT, and after a hook.
-/
namespace CPE.Rb.Spec
open CPE CPE.Spec
variable {δ ω : Type}

/-- Some work on an object: the state before, the exception if any, the state after. -/
abbrev Work (δ ω : Type) := Core δ ω → Option PyExc → Core δ ω → Prop

/-- Nothing. -/
def Skip : Work δ ω := fun c r c' => r = none ∧ c' = c

/-- One thing after the other. -/
def Then (p q : Work δ ω) : Work δ ω := fun c r c' =>
  (∃ c1, p c none c1 ∧ q c1 r c') ∨ ∃ e, r = some e ∧ p c (some e) c'

/-- Afterwards `data_shared` is again the dict it was before. -/
def Aside (p : Work δ ω) : Work δ ω := fun c r c' =>
  (∃ c1, r = none ∧ p c none c1 ∧ c' = { c1 with shared := c.shared }) ∨ ∃ e, r = some e ∧ p c (some e) c'

/-- The events, one after the other. -/
def Events (E : Env δ ω) (root : Str) (evs : List (Ev δ ω)) : Work δ ω := fun c r c' => replay E root evs c = (r, c')

/-- What working through a section, or some options of a section, does below the sections in `path`. -/
inductive Works (E : Env δ ω) (root : Str) : Task → Core δ ω → Option PyExc → Core δ ω → Prop
  | missing {path s c} : E.cfg.optionNames s = none → Works E root (.sec path s) c (some .keyError) c
  | sec {path s keys c c1 r c'} : E.cfg.optionNames s = some keys → Events E root [.visit s] c none c1 →
      Works E root (.opts (s :: path) s keys) c1 r c' → Works E root (.sec path s) c r c'
  | nil {path s c} : Works E root (.opts path s []) c none c
  -- an option that does not use a section: a handler that binds another dict binds it for the rest of the section
  | option {path s k ks evs c c1 r c'} : meaning E root s k = .events evs → Events E root evs c none c1 →
      Works E root (.opts path s ks) c1 r c' → Works E root (.opts path s (k :: ks)) c r c'
  | optionRaises {path s k ks evs c e c'} : meaning E root s k = .events evs → Events E root evs c (some e) c' →
      Works E root (.opts path s (k :: ks)) c (some e) c'
  | cycle {path s k ks t c c1 r c'} : meaning E root s k = .link t → t ∈ path → Events E root [.cycle s t] c none c1 →
      Works E root (.opts path s ks) c1 r c' → Works E root (.opts path s (k :: ks)) c r c'
  | cycleRaises {path s k ks t c e c'} : meaning E root s k = .link t → t ∈ path →
      Events E root [.cycle s t] c (some e) c' → Works E root (.opts path s (k :: ks)) c (some e) c'
  -- a section that is used starts with the dict of the section that uses it, which keeps its own
  | used {path s k ks t c c1 r c'} : meaning E root s k = .link t → t ∉ path → Works E root (.sec path t) c none c1 →
      Works E root (.opts path s ks) { c1 with shared := c.shared } r c' → Works E root (.opts path s (k :: ks)) c r c'
  | usedRaises {path s k ks t c e c'} : meaning E root s k = .link t → t ∉ path →
      Works E root (.sec path t) c (some e) c' → Works E root (.opts path s (k :: ks)) c (some e) c'

/-- A parse of `root`: `handler_initialize` and DEFAULT, if wanted and there; the section; `handler_finalize` if wanted. -/
def Parses (E : Env δ ω) (root : Str) (init fin : Bool) : Work δ ω :=
  Then (if init = true then Aside (Events E root [.call E.hookInit (hookCall root py!"handler_initialize")]) else Skip) <|
  Then (if init = true ∧ E.cfg.hasSection E.defaultName = true then Aside (Works E root (.sec [] E.defaultName)) else Skip) <|
  Then (Works E root (.sec [] root)) <|
  if fin = true then Aside (Events E root [.call E.hookFinal (hookCall root py!"handler_finalize")]) else Skip

/-- The handler leaves `data_shared` the dict it is; it may change what is in the dict. -/
def Keeps (h : Handler δ ω) : Prop := ∀ c d o, (h.run c d o).2.1 = d

/-- No handler of the class binds another dict. -/
def AllKeep (E : Env δ ω) : Prop :=
  Keeps E.hookInit ∧ Keeps E.hookFinal ∧ (∀ op h, E.pub op = some h → Keeps h) ∧ ∀ op h, E.priv op = some (.user h) → Keeps h

/-- The handlers called for the options written in section `s` itself bind no other dict. -/
def OwnKeep (E : Env δ ω) (root s : Str) : Prop :=
  ∀ keys k evs h hc, E.cfg.optionNames s = some keys → k ∈ keys → meaning E root s k = .events evs → .call h hc ∈ evs → Keeps h

end CPE.Rb.Spec
