import Verif.Model.GenConfig
/-
Model of the messages of the keyword tools: wip/keywordparser/keywordparser/FormattedMsg.py (FM), and the lists of
supported flags and environments in wip/genconfig/src/config_keyword_parser.py (CKP) and
wip/loadenv/loadenv/EnvKeywordParser.py (EKP).
-/
namespace CPE.KW
open CPE CPE.SetEnv

/-- The characters that end a line for `str.splitlines` (FM:23, FM:28). -/
def isBreak (c : Char) : Bool :=
  [10, 11, 12, 13, 28, 29, 30, 0x85, 0x2028, 0x2029].contains c.toNat

/-- `str.splitlines`; `acc` is the line so far, reversed. A carriage return and a line feed are one line end: `cr` says
that the last character was a carriage return. -/
def splitLinesFrom (acc : Str) (cr : Bool) : Str → List Str
  | [] => if acc = [] then [] else [acc.reverse]
  | c :: s =>
    if cr = true ∧ c = '\n' then splitLinesFrom acc false s
    else if isBreak c = true then acc.reverse :: splitLinesFrom [] (c == '\r') s
    else splitLinesFrom (c :: acc) false s

def splitLines (s : Str) : List Str := splitLinesFrom [] false s

/-- What `re.sub(r"\s+\n", "\n", ...)` (FM:31) makes of one longest run of white space: the match is greedy, so it
reaches from the beginning of the run to the last line feed in it, if there is something before that. -/
def squeeze (run : Str) : Str :=
  match run.reverse.dropWhile (· != '\n') with
  | '\n' :: _ :: _ => '\n' :: (run.reverse.takeWhile (· != '\n')).reverse
  | _ => run

/-- FM:31, run by run; `run` is the white space just before the rest. -/
def trimLinesFrom (run : Str) : Str → Str
  | [] => squeeze run
  | c :: s => if isSpace c = true then trimLinesFrom (run ++ [c]) s else squeeze run ++ c :: trimLinesFrom [] s

def trimLines (s : Str) : Str := trimLinesFrom [] s

/-- FM:30: the line at the top and at the bottom. -/
def bar : Str := py!"+==============================================================================+"

/-- FM:23-27: the lines of the message; without any line it stays as it is, which is empty. -/
def headLines (kind : Str) : List Str → Str
  | [] => []
  | l :: ls => py!"|   " ++ kind ++ py!":  " ++ l ++ py!"\n" ++ ls.flatMap fun l => py!"|           " ++ l ++ py!"\n"

/-- FM:4-33 `get_formatted_msg`. -/
def formattedMsg (msg kind extras : Str) : Str :=
  trimLines (py!"\n" ++ bar ++ py!"\n" ++ headLines kind (splitLines msg) ++
    ((splitLines extras).flatMap fun e => py!"|   " ++ e ++ py!"\n") ++ bar ++ py!"\n")

/-- FM:35-63 `get_msg_for_list`. -/
def msgForList (msg : Str) (items : List Str) (kind extras : Str) : Str :=
  formattedMsg msg kind ((items.flatMap fun i => py!"  - " ++ i ++ py!"\n") ++ extras)

/-- CKP:243-245: the options of a flag, the first one marked. -/
def optionLines : List Str → Str
  | [] => []
  | o :: os => py!"      - " ++ o ++ py!" (default)" ++ py!"\n" ++ os.flatMap fun o => py!"      - " ++ o ++ py!"\n"

/-- CKP:240-245: the lines on one flag. -/
def flagLines (flag : Str) (opts : List Str) (type : Str) : Str :=
  py!"  - " ++ flag ++ py!"\n" ++ (py!"    * Option" ++ (if 0 < opts.length then py!"s" else []) ++ py!" (" ++ type ++ py!"):\n") ++
    optionLines opts

section
variable (E : Env Unit Unit) (n : Nat)

/-- The loop of CKP:237-245. -/
def flagsLoop : List Str → M CObj Str
  | [] => pure []
  | f :: fs => do
    let (opts, type) ← optionsAndType E n f
    let rest ← flagsLoop fs
    pure (flagLines f opts type ++ rest)

/-- CKP:206-249 `get_msg_showing_supported_flags`; `path` is `str(config_filename)`. -/
def CKP.flagsMsg (path msg kind : Str) : M CKP Str := do
  let k ← M.read
  let t ← CKP.onObj (flagsLoop E n k.flagNames)
  pure (formattedMsg msg kind (py!"\n- Supported Flags Are:\n" ++ t ++ (py!"\nSee " ++ path ++ py!" for details.")))

/-- EKP:219-223: the lines on one environment. -/
def envLines (env : Str) (aliases : List Str) : Str :=
  py!"  - " ++ env ++ py!"\n" ++ (if 0 < aliases.length then py!"    * Aliases:\n" else []) ++
    aliases.flatMap fun a => py!"      - " ++ a ++ py!"\n"

/-- The loop of EKP:218-223. -/
def envsLoop (sys : Str) : List Str → M CObj Str
  | [] => pure []
  | e :: es => do
    let vals ← getValues E n sys e
    let rest ← envsLoop sys es
    pure (envLines e (sortStrs vals) ++ rest)

/-- EKP:187-233 `get_msg_showing_supported_environments`; `path` is `os.path.relpath(config_filename, ".")`. -/
def EKP.envsMsg (path msg kind : Str) : M EKP Str := fun k =>
  match envsLoop E n k.systemName (sortStrs k.envNames) k.obj with
  | (.ok t, o) => (.ok (formattedMsg msg kind (py!"\n- Supported Environments for '" ++ k.systemName ++ py!"':\n" ++ t ++
      (py!"\nSee `" ++ path ++ py!"` for details on the available environments.\n") ++ py!"\n" ++
      py!"To force-load an environment see the guidance in the `--help` output.\n" ++ py!"\n")), { k with obj := o })
  | (.exc e, o) => (.exc e, { k with obj := o })
  | (.diverge, o) => (.diverge, { k with obj := o })

end

/-- wip/loadenv/load_env.py:188-192: the list of the environments of the system; `path` is the path of supported-envs.ini. -/
def LE.envsText (T : Tool) (path : Str) : M LE Str := do
  let k ← LE.getKeywordParser T
  fun l => match EKP.envsMsg (cls T.envs) T.fuel path py!"Please select one of the following." py!"INFO" k with
    | (r, k') => (r, { l with ekp := some k' })

end CPE.KW
