import Verif.Base
/-
Model of the part of the standard library's `configparser.ConfigParser` that the parser reads through
`configparserdata`: sections, options with the common (default) section merged in, and basic
interpolation. The text reader is in `Verif/Model/IniText`.
-/
namespace CPE

/-- An option as stored by ConfigParser: key and raw value (`None` for `key` without delimiter). -/
abbrev RawOption := Str × Option Str

/-- The contents of a `configparser.ConfigParser` (attributes `_sections`, `_defaults`,
`default_section`), as built at ConfigParserEnhanced.py:248-284. -/
structure Cfg where
  sections : Dict Str (Dict Str (Option Str))
  common : Dict Str (Option Str) := []
  commonName : Str := py!"CONFIGPARSERENHANCED_COMMON"
  deriving DecidableEq, Repr

namespace Cfg

/-- `ConfigParser.sections()` -/
def sectionNames (c : Cfg) : List Str := Dict.keys c.sections

/-- `ConfigParser.has_section(s)` (false for the default section). -/
def hasSection (c : Cfg) (s : Str) : Bool := Dict.mem c.sections s

/-- `ConfigParser.options(s)`/`defaults()`: option names of `parser[s]` in iteration order: those of the
section, then those of the common section that the section does not define. `none`: `parser[s]`
raises KeyError. -/
def optionNames (c : Cfg) (s : Str) : Option (List Str) :=
  if s = c.commonName then some (Dict.keys c.common)
  else match Dict.get? c.sections s with
    | none => none
    | some os => some (Dict.keys os ++ (Dict.keys c.common).filter fun k => !Dict.mem os k)

/-- `_unify_values(s, None)[k]`: the raw value of option `k`, section first, then common. -/
def rawValue (c : Cfg) (s k : Str) : Option (Option Str) :=
  match (if s = c.commonName then none else Dict.get? c.sections s) with
  | none => Dict.get? c.common k
  | some os => match Dict.get? os k with
    | some v => some v
    | none => Dict.get? c.common k

/-- `_KEYCRE.match(rest)` with `%\(([^)]+)\)s`: the part after `%(`; gives the name and the rest. -/
def matchKey (s : Str) : Option (Str × Str) :=
  match s.dropWhile (· ≠ ')') with
  | ')' :: 's' :: rest =>
    let name := s.takeWhile (· ≠ ')')
    if name = [] then none else some (name, rest)
  | _ => none

/-- The `while rest:` loop of `BasicInterpolation._interpolate_some`. `look` is `map[var]`, `nested` the
recursive call for a value that contains '%'. The first argument bounds the loop: each turn
shortens `rest`, so `rest.length` is enough. -/
def interpLoop (look : Str → Option (Option Str)) (nested : Str → Except PyExc Str) :
    Nat → Str → Except PyExc Str
  | _, [] => .ok []
  | 0, _ :: _ => .ok []
  | n + 1, c :: rest =>
    if c ≠ '%' then (c :: ·) <$> interpLoop look nested n rest
    else match rest with
      | '%' :: rest => ('%' :: ·) <$> interpLoop look nested n rest
      | '(' :: rest =>
        match matchKey rest with
        | none => .error .interpolationSyntax
        | some (name, rest) =>
          match look name with
          | none => .error .interpolationMissing
          | some none => .error .typeError            -- `"%" in None`
          | some (some v) =>
            if '%' ∈ v then
              match nested v with
              | .error e => .error e
              | .ok v => (v ++ ·) <$> interpLoop look nested n rest
            else (v ++ ·) <$> interpLoop look nested n rest
      | _ => .error .interpolationSyntax

/-- `_interpolate_some(..., depth)`: `d` is `MAX_INTERPOLATION_DEPTH + 1 - depth`. -/
def interpSome (look : Str → Option (Option Str)) : Nat → Str → Except PyExc Str
  | 0, _ => .error .interpolationDepth
  | d + 1, s => interpLoop look (interpSome look d) s.length s

/-- `BasicInterpolation.before_get` = `_interpolate_some` at depth 1, with at most 10 levels. -/
def interpolate (look : Str → Option (Option Str)) (v : Str) : Except PyExc Str :=
  interpSome look 10 v

/-- `parser[s][k]`: `None` stays `None`, a string is interpolated. -/
def value (c : Cfg) (s k : Str) : Except PyExc (Option Str) :=
  match c.rawValue s k with
  | none => .error .keyError
  | some none => .ok none
  | some (some v) => match interpolate (c.rawValue s) v with
    | .ok v => .ok (some v)
    | .error e => .error e

end Cfg
end CPE
