import Verif.Model.ModuleHelper
import Verif.Spec.Dispatch
import Verif.Spec.SetEnvironment
/-
What `ModuleHelper.module` is expected to do (C62).
-/
namespace CPE.MH.Spec
open CPE CPE.SetEnv CPE.Spec

/-- `SpaceWords s ws`: the words of a text, as separated by white space. -/
inductive SpaceWords : Str → List Str → Prop
  | nil : SpaceWords [] []
  | space {c s ws} : White c → SpaceWords s ws → SpaceWords (c :: s) ws
  | word {w s ws} : w ≠ [] → (∀ c ∈ w, ¬ White c) → (∀ c ∈ s.head?, White c) → SpaceWords s ws → SpaceWords (w ++ s) (w :: ws)

/-- `Says l p`: a line calls the program `p`, as the definition of the shell function `module` does: somewhere in it
there is ``eval `p bash``. (If at several places, `p` is from the first one.) -/
def Says (l p : Str) : Prop :=
  (∀ c ∈ p, ¬ White c) ∧ ∃ x y, l = x ++ py!"eval `" ++ p ++ py!" bash" ++ y ∧
    ∀ x' p' y', l = x' ++ py!"eval `" ++ p' ++ py!" bash" ++ y' → (∀ c ∈ p', ¬ White c) → x.length ≤ x'.length

/-- `Defines text p`: exactly one line of a text calls a program, and this is `p`. -/
def Defines (text p : Str) : Prop :=
  ∃ before l after, text = joinStr py!"\n" (before ++ l :: after) ∧ (∀ x ∈ before ++ l :: after, '\n' ∉ x) ∧
    Says l p ∧ ∀ x ∈ before ++ after, ∀ q, ¬ Says x q

/-- `Located H env p`: where modulecmd is: on the search path, or where the shell function `module` says. -/
inductive Located (H : Host) (env : Environ) : Str → Prop
  | distutils {p} : H.finder env = some p → Located H env p
  | path {p} : H.finder env = none → H.which env py!"modulecmd" = some p → Located H env p
  | function {text p q} : H.finder env = none → H.which env py!"modulecmd" = none →
      H.typeModule env = some text → Defines text p → H.which env p = some q → Located H env p

/-- `Line p words args cmd`: the command line for modulecmd: a single argument is split into words. -/
inductive Line (p : Str) (words : List Str) : List Str → List Str → Prop
  | one {a ws} : SpaceWords a ws → Line p words [a] (p :: py!"python" :: words ++ ws)
  | other {args} : args.length ≠ 1 → Line p words args (p :: py!"python" :: words ++ args)

/-- modulecmd has reported an error. -/
def Reported (r : Proc) : Prop := ∃ x y, r.err = x ++ py!"ERROR:" ++ y

/-- `ModOutcome H env words args out env'`: what `module(words, *args)` does in the environment `env`. -/
inductive ModOutcome (H : Host) (env : Environ) (words args : List Str) : Out Int → Environ → Prop
  | notFound : (∀ p, ¬ Located H env p) → ModOutcome H env words args (.exc (.user py!"FileNotFoundError")) env
  | notRun {p cmd e} : Located H env p → Line p words args cmd → H.popen cmd env = .exc e →
      ModOutcome H env words args (.exc e) env
  | hangs {p cmd} : Located H env p → Line p words args cmd → H.popen cmd env = .diverge →
      ModOutcome H env words args .diverge env
  | reported {p cmd r} : Located H env p → Line p words args cmd → H.popen cmd env = .ok r → Reported r →
      ModOutcome H env words args (.ok 1) env
  | failed {p cmd r} : Located H env p → Line p words args cmd → H.popen cmd env = .ok r → ¬ Reported r → r.code ≠ 0 →
      ModOutcome H env words args (.ok r.code) env
  | raised {p cmd r e env'} : Located H env p → Line p words args cmd → H.popen cmd env = .ok r → ¬ Reported r →
      r.code = 0 → H.exec r.out env = (.exc e, env') → ModOutcome H env words args (.exc e) env'
  | spins {p cmd r env'} : Located H env p → Line p words args cmd → H.popen cmd env = .ok r → ¬ Reported r →
      r.code = 0 → H.exec r.out env = (.diverge, env') → ModOutcome H env words args .diverge env'
  | refused {p cmd r env'} : Located H env p → Line p words args cmd → H.popen cmd env = .ok r → ¬ Reported r →
      r.code = 0 → H.exec r.out env = (.ok (some false), env') → ModOutcome H env words args (.ok 1) env'
  | done {p cmd r st env'} : Located H env p → Line p words args cmd → H.popen cmd env = .ok r → ¬ Reported r →
      r.code = 0 → H.exec r.out env = (.ok st, env') → st ≠ some false → ModOutcome H env words args (.ok 0) env'

/-! ### LMOD -/

/-- `SameLetters a b`: two texts that are the same except for capital letters (of ASCII). -/
inductive SameLetters : Str → Str → Prop
  | nil : SameLetters [] []
  | same {c a b} : SameLetters a b → SameLetters (c :: a) (c :: b)
  | upper {n a b} : 65 ≤ n → n ≤ 90 → SameLetters a b → SameLetters (Char.ofNat n :: a) (Char.ofNat (n + 32) :: b)

/-- The command has reported an error, in capital letters or not. -/
def LmodReported (err : Str) : Prop := ∃ x w y, err = x ++ w ++ y ∧ SameLetters w py!"error:"

/-- `Checks words cs`: the shell commands that check that the command `words` has worked. -/
inductive Checks : List Str → List Str → Prop
  | load {m ms} : Checks (py!"load" :: m :: ms) [py!"module is-loaded " ++ m ++ py!" && true  || false"]
  | unload {m ms} : Checks (py!"unload" :: m :: ms) [py!"module is-loaded " ++ m ++ py!" && false || true"]
  | swap {m m' ms} : Checks (py!"swap" :: m :: m' :: ms)
      [py!"module is-loaded " ++ m ++ py!" && false || true", py!"module is-loaded " ++ m' ++ py!" && true  || false"]
  | use {m ms} : Checks (py!"use" :: m :: ms) [py!"[ -e " ++ m ++ py!" ] && true || false"]
  | other {c ms} : c ∉ [py!"load", py!"unload", py!"swap", py!"use"] → Checks (c :: ms) []

/-- `LmodOutcome H env words out env'`: what `module` does with the words of a command in the environment `env`. -/
inductive LmodOutcome (H : Host) (env : Environ) (words : List Str) : Out Int → Environ → Prop
  | unset : Dict.get? env py!"LMOD_CMD" = none → LmodOutcome H env words (.exc .typeError) env
  | empty : Dict.get? env py!"LMOD_CMD" = some [] → LmodOutcome H env words (.exc (.user py!"FileNotFoundError")) env
  | noName {v env'} : Dict.get? env py!"LMOD_CMD" = some v → v ≠ [] →
      H.lmod words env = (.exc (.user py!"NameError"), env') → LmodOutcome H env words (.exc .runtimeError) env'
  | raised {v e env'} : Dict.get? env py!"LMOD_CMD" = some v → v ≠ [] → H.lmod words env = (.exc e, env') →
      e ≠ .user py!"NameError" → LmodOutcome H env words (.exc e) env'
  | spins {v env'} : Dict.get? env py!"LMOD_CMD" = some v → v ≠ [] → H.lmod words env = (.diverge, env') →
      LmodOutcome H env words .diverge env'
  | unchecked {v r env'} : Dict.get? env py!"LMOD_CMD" = some v → v ≠ [] → H.lmod words env = (.ok r, env') →
      (∀ cs, ¬ Checks words cs) → LmodOutcome H env words (.exc .indexError) env'
  | reported {v o err env' cs} : Dict.get? env py!"LMOD_CMD" = some v → v ≠ [] → H.lmod words env = (.ok (o, err), env') →
      Checks words cs → LmodReported err → LmodOutcome H env words (.ok 1) env'
  | failed {v o err env' good c rest} : Dict.get? env py!"LMOD_CMD" = some v → v ≠ [] →
      H.lmod words env = (.ok (o, err), env') → ¬ LmodReported err → Checks words (good ++ c :: rest) →
      (∀ x ∈ good, H.system x env' = 0) → H.system c env' ≠ 0 → LmodOutcome H env words (.ok (H.system c env')) env'
  | done {v o err env' cs} : Dict.get? env py!"LMOD_CMD" = some v → v ≠ [] →
      H.lmod words env = (.ok (o, err), env') → ¬ LmodReported err → Checks words cs →
      (∀ x ∈ cs, H.system x env' = 0) → LmodOutcome H env words (.ok 0) env'

end CPE.MH.Spec
