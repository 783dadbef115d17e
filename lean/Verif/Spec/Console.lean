import Verif.Model.Console
import Verif.Spec.Unroll
/-
What a parse prints: the unrolling of the parse with the lines of the debug trace in their places.
-/
namespace CPE.Con.Spec
open CPE CPE.Spec

variable {δ ω : Type}

/-- A line of the trace: the level it asks for, and its text. -/
abbrev Line := Nat × Str

/-- The lines that a debug level lets through, as printed: marked with their level. -/
def printed (debug : Nat) (l : List Line) : List Printed :=
  (l.filter fun x => x.1 ≤ debug).map fun x => .debug x.1 (py!"[D-" ++ (toString x.1).toList ++ py!"] " ++ x.2 ++ py!"\n")

/-- A step: lines, which may show `data_shared`; an event of the unrolling other than a call; the call of a handler of the
class while the sections `path` are being parsed. -/
inductive Item (δ ω : Type) where
  | lines (l : δ → List Line)
  | ev (e : Ev δ ω)
  | call (path : List Str) (h : Handler δ ω) (c : HCall)

/-- A str or None as text. -/
def plain : Option Str → Str
  | none => py!"None"
  | some s => s

/-- A str or None, strings as Python quotes them. -/
def quoted (P : Printer δ) : Option Str → Str
  | none => py!"None"
  | some s => P.repr s

/-- The pair of key and value. -/
def pair (P : Printer δ) (c : HCall) : Str := py!"(" ++ quoted P c.rawKey ++ py!", " ++ quoted P c.rawValue ++ py!")"

/-- A list of strings. -/
def listed (P : Printer δ) (l : List Str) : Str := py!"[" ++ ((l.map P.repr).intersperse py!", ").flatten ++ py!"]"

/-- The lines at the beginning of a handler. -/
def entering (P : Printer δ) (path : List Str) (c : HCall) (d : δ) : List Line :=
  [(1, py!"Enter handler    : " ++ c.handlerName), (1, py!" -> raw_option   : " ++ pair P c), (2, py!" -> op           : " ++ c.op),
   (2, py!" -> params       : " ++ listed P c.params), (2, py!" -> value        : " ++ plain c.value),
   (3, py!" -> data_shared  : " ++ P.shared d), (4, py!" -> data_internal: " ++ P.internal path)]

/-- The lines at its end. -/
def leaving (P : Printer δ) (path : List Str) (c : HCall) (d : δ) : List Line :=
  [(1, py!"Exit handler     : " ++ c.handlerName), (1, py!" -> raw_option   : " ++ pair P c),
   (3, py!" -> data_shared  : " ++ P.shared d), (4, py!" -> data_internal: " ++ P.internal path)]

/-- The line about what it returned. -/
def returned (name : Str) (i : Int) : Line :=
  (2, py!"_check_handler_rval(" ++ name ++ py!", " ++ (toString i).toList ++ py!")")

/-- The lines at both ends of a section. -/
def enters (s : Str) : Item δ ω := .lines fun _ => [(1, py!">>> Enter section    : `" ++ s ++ py!"`")]
def exits (s : Str) : Item δ ω := .lines fun _ => [(1, py!"Exit section: `" ++ s ++ py!"`")]

/-- One step: exception, state, what is printed. -/
def playOne (E : Env δ ω) (P : Printer δ) (root : Str) (it : Item δ ω) (c : Core δ ω) :
    Option PyExc × Core δ ω × List Printed :=
  match it with
  | .lines f => (none, c, printed E.debug (f c.shared))
  | .ev e => ((evStep E root e c).1, (evStep E root e c).2, ((evStep E root e c).2.out.drop c.out.length).map .notice)
  | .call path h hc =>
    ((evStep E root (.call h hc) c).1, (evStep E root (.call h hc) c).2,
      (if h.decorated = true then
        printed E.debug (entering P path hc c.shared) ++
        match (h.run hc c.shared c.self).1 with
        | .error _ => []
        | .ok .notInt => printed E.debug (leaving P path hc (h.run hc c.shared c.self).2.1)
        | .ok (.int i) => printed E.debug (leaving P path hc (h.run hc c.shared c.self).2.1 ++ [returned hc.handlerName i])
      else []) ++ ((evStep E root (.call h hc) c).2.out.drop c.out.length).map .notice)

/-- The steps one after the other, up to the first one that raises. -/
def play (E : Env δ ω) (P : Printer δ) (root : Str) : List (Item δ ω) → Core δ ω → Option PyExc × Core δ ω × List Printed
  | [], c => (none, c, [])
  | it :: its, c =>
    match playOne E P root it c with
    | (none, c', l) => ((play E P root its c').1, (play E P root its c').2.1, l ++ (play E P root its c').2.2)
    | (some e, c', l) => (some e, c', l)

/-- The operation and the parameters that the trace shows with an option that has none: those of the last option of the
section that had some. -/
abbrev Last := Str × List Str

/-- An option that nobody handles. -/
def unhandled (P : Printer δ) (path : List Str) (c : HCall) (k : Str) (v : Option Str) : List (Item δ ω) :=
  [.ev (.store k v), .lines (entering P path c), .lines (leaving P path c),
    .lines fun _ => [returned py!"_generic_option_handler" 0]]

/-- An option: steps, or a `use` of a section by the call `c`. -/
inductive Entry (δ ω : Type) where
  | items (l : List (Item δ ω)) (last : Last)
  | link (before : List (Item δ ω)) (c : HCall) (target : Str) (last : Last)

/-- Option `key` of section `s` when `root` is being parsed and the sections of `path` are open. -/
def entry (E : Env δ ω) (P : Printer δ) (root : Str) (path : List Str) (s : Str) (last : Last) (key : Str) : Entry δ ω :=
  match E.cfg.value s key with
  | .error e => .items [.ev (.fail e)] last
  | .ok v =>
    let k := strip key
    let v := v.map fun x => stripQuotes (strip x)
    let seen : Item δ ω :=
      .lines fun _ => [(2, py!"==>"), (2, py!"==> Entry        : `" ++ k ++ py!"` : `" ++ plain v ++ py!"`"), (2, py!"==>")]
    let generic (last : Last) : HCall :=
      { sectionName := s, sectionRoot := root, rawKey := some k, rawValue := v, op := last.1, params := last.2, value := v,
        handlerName := py!"_generic_option_handler" }
    match shlexSplit k with
    | .error e => .items [seen, .ev (.fail e)] last
    | .ok [] => .items [seen, .ev (.fail .indexError)] last
    | .ok (word :: params) =>
      if OpWord word then
        let op := opName word
        let pubName := py!"handler_" ++ op
        let privName := py!"_handler_" ++ op
        let named : Item δ ω := .lines fun _ =>
          [(2, py!" -> op           : " ++ op), (2, py!" -> params       : " ++ listed P params), (2, py!" -> value        : " ++ plain v)]
        let call (name : Str) : HCall :=
          { sectionName := s, sectionRoot := root, rawKey := some k, rawValue := v, op := op,
            params := params, value := v, handlerName := name }
        let absent (name : Str) : Line := (5, py!" -> Class method `" ++ name ++ py!"` was not found.")
        match publicHandler E op, E.priv op with
        | none, none =>
          .items ([seen, named,
            .lines fun _ => [absent pubName, absent privName, (4, py!" -> No handler found for operation `" ++ op ++ py!"`")]] ++
            unhandled P path (generic (op, params)) k v) (op, params)
        | some h, none =>
          .items [seen, named,
            .lines fun _ => [absent privName, (4, py!" -> Using _public_ handler : `" ++ pubName ++ py!"`")],
            .call path h (call pubName)] (op, params)
        | some h, some _ =>
          .items [seen, named, .ev (.ambiguous op),
            .lines fun _ => [(4, py!" -> Using _public_ handler : `" ++ pubName ++ py!"`")],
            .call path h (call pubName)] (op, params)
        | none, some i =>
          let found : List (Item δ ω) := [seen, named,
            .lines fun _ => [absent pubName, (4, py!" -> Using _private_ handler: `" ++ privName ++ py!"`")]]
          match i, params with
          | .user h, _ => .items (found ++ [.call path h (call privName)]) (op, params)
          | .use, [] => .items (found ++ [.lines (entering P path (call privName)), .ev (.fail .indexError)]) (op, params)
          | .use, t :: _ => .link found (call privName) t (op, params)
      else .items (seen :: unhandled P path (generic last) k v) last

/-- What is being unrolled. -/
inductive Task where
  | sec (path : List Str) (s : Str)
  | opts (path : List Str) (s : Str) (last : Last) (keys : List Str)

/-- Unrolling with the trace. The line at the exit of a section is added by whoever entered it. -/
inductive Trace (E : Env δ ω) (P : Printer δ) (root : Str) : Task → List (Item δ ω) → Prop
  | missing {path s} : E.cfg.optionNames s = none →
      Trace E P root (.sec path s) [enters s, .ev (.missing s)]
  | sec {path s keys its} : E.cfg.optionNames s = some keys →
      Trace E P root (.opts (s :: path) s ([], []) keys) its →
      Trace E P root (.sec path s) (enters s :: .ev (.visit s) :: its)
  | nil {path s last} : Trace E P root (.opts path s last []) []
  | items {path s last k ks its last' rest} : entry E P root path s last k = .items its last' →
      Trace E P root (.opts path s last' ks) rest →
      Trace E P root (.opts path s last (k :: ks)) (its ++ rest)
  | cyclic {path s last k ks before c t last' rest} : entry E P root path s last k = .link before c t last' → t ∈ path →
      Trace E P root (.opts path s last' ks) rest →
      Trace E P root (.opts path s last (k :: ks))
        (before ++ [.lines (entering P path c), .ev (.cycle s t), .lines (leaving P path c),
          .lines fun _ => [returned c.handlerName 0]] ++ rest)
  | link {path s last k ks before c t last' sub rest} : entry E P root path s last k = .link before c t last' → t ∉ path →
      Trace E P root (.sec path t) sub →
      Trace E P root (.opts path s last' ks) rest →
      Trace E P root (.opts path s last (k :: ks))
        (before ++ [.lines (entering P path c)] ++ sub ++
          [exits t, .lines (leaving P path c), .lines fun _ => [returned c.handlerName 0]] ++ rest)

/-- A whole parse of `root`. -/
inductive ParseTrace (E : Env δ ω) (P : Printer δ) (root : Str) : Bool → Bool → List (Item δ ω) → Prop
  | mk {init fin itsD itsR} :
      (init = true ∧ E.cfg.hasSection E.defaultName = true →
        ∃ its, Trace E P root (.sec [] E.defaultName) its ∧ itsD = its ++ [exits E.defaultName]) →
      (¬ (init = true ∧ E.cfg.hasSection E.defaultName = true) → itsD = []) →
      Trace E P root (.sec [] root) itsR →
      ParseTrace E P root init fin
        ((if init then [.call [] E.hookInit (hookCall root py!"handler_initialize")] else []) ++ itsD ++ itsR ++
         (if fin then [.call [root] E.hookFinal (hookCall root py!"handler_finalize")] else []) ++ [exits root])

/-- The banner before and after a parse. -/
def banner (s word : Str) : List Line :=
  [(1, py!"[" ++ List.replicate 58 '-' ++ py!"]"), (1, py!"  Parse section `" ++ s ++ py!"` " ++ word),
   (1, py!"[" ++ List.replicate 58 '-' ++ py!"]")]

/-- The event notices among what is printed. -/
def noticesOf (l : List Printed) : List Notice :=
  l.filterMap fun x => match x with | .notice n => some n | .debug _ _ => none

/-- May be printed at debug level `d`. -/
def allowed (d : Nat) : Printed → Bool
  | .debug k _ => k ≤ d
  | .notice _ => true

end CPE.Con.Spec
