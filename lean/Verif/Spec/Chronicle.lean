import Verif.Spec.Unroll
/-
The unrolling of a parse with the records of the debug log in their places.
-/
namespace CPE.Spec

variable {δ ω : Type}

/-- A record of the log, or an event of the unrolling. -/
inductive Step (δ ω : Type) where
  | log (l : LogEntry)
  | ev (e : Ev δ ω)

/-- One item. The call of a decorated handler is recorded too: when it begins, and when it returns (whatever it
returns), but not when it raises. -/
def stepOne (E : Env δ ω) (root : Str) (it : Step δ ω) (c : Core δ ω) (log : List LogEntry) :
    Option PyExc × Core δ ω × List LogEntry :=
  match it with
  | .log l => (none, c, log ++ [l])
  | .ev (.call h hc) =>
    ((evStep E root (.call h hc) c).1, (evStep E root (.call h hc) c).2,
      if h.decorated = true then
        match (h.run hc c.shared c.self).1 with
        | .error _ => log ++ [.handlerEntry hc.handlerName hc.rawKey hc.rawValue]
        | .ok _ => log ++ [.handlerEntry hc.handlerName hc.rawKey hc.rawValue, .handlerExit hc.handlerName hc.rawKey hc.rawValue]
      else log)
  | .ev e => ((evStep E root e c).1, (evStep E root e c).2, log)

/-- Replay items, stopping at the first event that raises. -/
def replayItems (E : Env δ ω) (root : Str) : List (Step δ ω) → Core δ ω → List LogEntry → Option PyExc × Core δ ω × List LogEntry
  | [], c, log => (none, c, log)
  | it :: its, c, log =>
    match stepOne E root it c log with
    | (none, c', log') => replayItems E root its c' log'
    | (some e, c', log') => (some e, c', log')

/-- An option that nobody handles: it is stored, and the generic handler is recorded. -/
def unhandledItems (k : Str) (v : Option Str) : List (Step δ ω) :=
  [.ev (.store k v), .log (.handlerEntry py!"_generic_option_handler" (some k) v),
    .log (.handlerExit py!"_generic_option_handler" (some k) v)]

/-- One option: items, or a `use` of a section by the method `name`. -/
inductive Entry (δ ω : Type) where
  | items (l : List (Step δ ω))
  | link (before : List (Step δ ω)) (name op k : Str) (v : Option Str) (target : Str)

/-- Option `key` of section `s` when `root` is being parsed. -/
def entry (E : Env δ ω) (root s key : Str) : Entry δ ω :=
  match E.cfg.value s key with
  | .error e => .items [.ev (.fail e)]
  | .ok v =>
    let k := strip key
    let v := v.map fun x => stripQuotes (strip x)
    let seen : Step δ ω := .log (.keyValue k v)
    match shlexSplit k with
    | .error e => .items [seen, .ev (.fail e)]
    | .ok [] => .items [seen, .ev (.fail .indexError)]
    | .ok (word :: params) =>
      if OpWord word then
        let op := opName word
        let named : Step δ ω := .log (.operation op params)
        let call (name : Str) (h : Handler δ ω) : Step δ ω :=
          .ev (.call h { sectionName := s, sectionRoot := root, rawKey := some k, rawValue := v, op := op,
                         params := params, value := v, handlerName := name })
        match publicHandler E op, E.priv op with
        | none, none => .items (seen :: named :: unhandledItems k v)
        | some h, none => .items [seen, named, call (py!"handler_" ++ op) h]
        | some h, some _ => .items [seen, named, .ev (.ambiguous op), call (py!"handler_" ++ op) h]
        | none, some (.user h) => .items [seen, named, call (py!"_handler_" ++ op) h]
        | none, some .use =>
          match params with
          | [] => .items [seen, named, .log (.handlerEntry (py!"_handler_" ++ op) (some k) v), .ev (.fail .indexError)]
          | t :: _ => .link [seen, named] (py!"_handler_" ++ op) op k v t
      else .items (seen :: unhandledItems k v)

/-- Unrolling with the log. The exit of a section is recorded by whoever entered it. -/
inductive Chronicle (E : Env δ ω) (root : Str) : Task → List (Step δ ω) → Prop
  | missing {path s} : E.cfg.optionNames s = none →
      Chronicle E root (.sec path s) [.log (.sectionEntry s), .ev (.missing s)]
  | sec {path s keys its} : E.cfg.optionNames s = some keys →
      Chronicle E root (.opts (s :: path) s keys) its →
      Chronicle E root (.sec path s) (.log (.sectionEntry s) :: .ev (.visit s) :: its)
  | nil {path s} : Chronicle E root (.opts path s []) []
  | plain {path s k ks its rest} : entry E root s k = .items its →
      Chronicle E root (.opts path s ks) rest →
      Chronicle E root (.opts path s (k :: ks)) (its ++ rest)
  | cyclic {path s k ks before name op k' v t rest} : entry E root s k = .link before name op k' v t → t ∈ path →
      Chronicle E root (.opts path s ks) rest →
      Chronicle E root (.opts path s (k :: ks))
        (before ++ [.log (.handlerEntry name (some k') v), .log (.cycleDetected s op), .log (.handlerExit name (some k') v),
          .ev (.cycle s t), .log (.handlerExit name (some k') v)] ++ rest)
  | link {path s k ks before name op k' v t sub rest} : entry E root s k = .link before name op k' v t → t ∉ path →
      Chronicle E root (.sec path t) sub →
      Chronicle E root (.opts path s ks) rest →
      Chronicle E root (.opts path s (k :: ks))
        (before ++ [.log (.handlerEntry name (some k') v)] ++ sub ++
          [.log (.sectionExit t), .log (.handlerExit name (some k') v)] ++ rest)

/-- A whole parse of `root`. -/
inductive ParseChronicle (E : Env δ ω) (root : Str) : Bool → Bool → List (Step δ ω) → Prop
  | mk {init fin itsD itsR} :
      (init = true ∧ E.cfg.hasSection E.defaultName = true →
        ∃ its, Chronicle E root (.sec [] E.defaultName) its ∧ itsD = its ++ [.log (.sectionExit E.defaultName)]) →
      (¬ (init = true ∧ E.cfg.hasSection E.defaultName = true) → itsD = []) →
      Chronicle E root (.sec [] root) itsR →
      ParseChronicle E root init fin
        ((if init then [.ev (.call E.hookInit (hookCall root py!"handler_initialize"))] else []) ++ itsD ++ itsR ++
         (if fin then [.ev (.call E.hookFinal (hookCall root py!"handler_finalize"))] else []) ++ [.log (.sectionExit root)])

/-- The events among the items. -/
def eventsOf (l : List (Step δ ω)) : List (Ev δ ω) :=
  l.filterMap fun it => match it with | .ev e => some e | .log _ => none

end CPE.Spec
