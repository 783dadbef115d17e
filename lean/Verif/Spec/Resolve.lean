import Verif.Spec.Unroll
/-
What the enhanced data of a section should be, in terms of its unrolled events.
-/
namespace CPE.Spec

variable {δ ω : Type}

/-- The unhandled options of an unrolled parse, in order. -/
def stores : List (Ev δ ω) → List (Str × Option Str)
  | [] => []
  | .store k v :: evs => (k, v) :: stores evs
  | _ :: evs => stores evs

/-- The sections entered by an unrolled parse, in order. -/
def visits : List (Ev δ ω) → List Str
  | [] => []
  | .visit s :: evs => s :: visits evs
  | _ :: evs => visits evs

/-- The handler calls of an unrolled parse, in order. -/
def calls : List (Ev δ ω) → List (Handler δ ω × HCall)
  | [] => []
  | .call h c :: evs => (h, c) :: calls evs
  | _ :: evs => calls evs

/-- The `use` options that would close a cycle, in order. -/
def cycles : List (Ev δ ω) → List (Str × Str)
  | [] => []
  | .cycle s t :: evs => (s, t) :: cycles evs
  | _ :: evs => cycles evs

/-- The elements of a list in order of first occurrence. -/
def firstOccurrences : List Str → List Str
  | [] => []
  | k :: ks => k :: (firstOccurrences ks).filter fun x => decide (x ≠ k)

/-- The last value written to `k`. -/
def lastWrite : List (Str × Option Str) → Str → Option (Option Str)
  | [], _ => none
  | (k', v) :: ws, k => match lastWrite ws k with
    | some v' => some v'
    | none => if k' = k then some v else none

/-- `d` is what one gets by writing `ws` in order into an empty dict: the keys in order of first write,
each with the value written last. -/
def LastWins (ws : List (Str × Option Str)) (d : Options) : Prop :=
  Dict.keys d = firstOccurrences (ws.map Prod.fst) ∧ ∀ k, Dict.get? d k = lastWrite ws k

/-- `d` is the enhanced data of section `s`: the last-wins merge of the unhandled options in the
depth-first unrolling of DEFAULT (if any) followed by `s`. -/
def Resolved (E : Env δ ω) (s : Str) (d : Options) : Prop :=
  ∃ evs, ParseTrace E s true true evs ∧ LastWins (stores evs) d

/-- Section `t` has an option, written `k` in the enhanced data, that no handler takes. -/
def HasUnhandled (E : Env δ ω) (t k : Str) : Prop :=
  ∃ keys key v, E.cfg.optionNames t = some keys ∧ key ∈ keys ∧ meaning E t t key = .events [.store k v]

/-- The sections that matter for `s`: those reachable from `s` or from the DEFAULT section of the file. -/
def Relevant (E : Env δ ω) (s t : Str) : Prop :=
  Reaches E s t ∨ (E.cfg.hasSection E.defaultName = true ∧ Reaches E E.defaultName t)

/-- The fold of handler calls over shared data and subclass attributes. -/
def foldCalls : List (Handler δ ω × HCall) → δ × ω → δ × ω
  | [], st => st
  | (h, c) :: cs, st => foldCalls cs (h.run c st.1 st.2).2

end CPE.Spec
