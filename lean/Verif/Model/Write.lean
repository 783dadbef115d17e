import Verif.Model.Object
/-
Model of `ConfigParserEnhanced.write` (src/configparserenhanced/ConfigParserEnhanced.py:373-401).
-/
namespace CPE

/-- A file object: what has been written so far, and the exception its `write` raises if it does (a closed file, one
opened for reading or for bytes). What reaches the disk, and when, is not modelled. -/
structure Stream where
  content : Str
  refuses : Option PyExc := none
  deriving DecidableEq, Repr

/-- `file_object.write(text)`. -/
def Stream.write (text : Str) (s : Stream) : Out Unit × Stream :=
  match s.refuses with
  | some e => (.exc e, s)
  | none => (.ok (), { s with content := s.content ++ text })

section
variable {δ ω : Type}

/-- ConfigParserEnhanced.py:373-401 `write`; `none`: the first argument is not an `io.IOBase`, for which
`_validate_parameter` (1415-1440) fires a CATASTROPHIC event, which raises at every level
(`Event.levelReq .catastrophic = 0`). The notices of the event are not printed when it raises. -/
def Full.write (K : Env δ ω) (n : Nat) (fs : FS) (file : Option Stream) (sec : Option Str) (space base : Bool)
    (f : Full δ ω) : Out Int × Option Stream × Full δ ω :=
  match file with
  | none => match (fireEvent f.level K.silentWarnings K.compactWarnings .catastrophic .typeError).1 with
    | .exc e => (.exc e, none, f)
    | _ => (.ok 0, none, f)
  | some s => match f.unroll K n fs sec space base with
    | (.ok text, f') => match s.write text with
      | (.ok (), s') => (.ok 0, some s', f')
      | (.exc e, s') => (.exc e, some s', f')
      | (.diverge, s') => (.diverge, some s', f')
    | (.exc e, f') => (.exc e, some s, f')
    | (.diverge, f') => (.diverge, some s, f')

end
end CPE
