import Verif.Model.Config
/-
Model of the text reader of the standard library's `configparser.ConfigParser` as it is used at
ConfigParserEnhanced.py:248-289 (`allow_no_value=True`, `strict=True`, comment prefixes `#` and `;`, no inline
comments, `empty_lines_in_values=True`, `optionxform=str`). Line numbers are those of Lib/configparser.py of CPython 3.12.
-/
namespace CPE

/-- Universal newlines: `open(filename, encoding=...)` turns `\r\n` and `\r` into `\n`
(ConfigParserEnhanced.py:283 `read`, configparser.py:683). -/
def universalNewlines : Str → Str
  | [] => []
  | '\r' :: '\n' :: cs => '\n' :: universalNewlines cs
  | '\r' :: cs => '\n' :: universalNewlines cs
  | c :: cs => c :: universalNewlines cs

/-- `for line in fp` (configparser.py:999): lines without line end; nothing after a final line end. -/
def linesOf : Str → List Str
  | [] => []
  | '\n' :: cs => [] :: linesOf cs
  | c :: cs => match linesOf cs with
    | [] => [[c]]
    | l :: ls => (c :: l) :: ls

/-- `SECTCRE.match(value)` with `\[(?P<header>.+)\]` (configparser.py:545-549): up to the last bracket. -/
def sectionHeader (value : Str) : Option Str :=
  match value with
  | '[' :: rest =>
    match rest.reverse.dropWhile (· ≠ ']') with
    | _ :: h => if h = [] then none else some h.reverse
    | [] => none
  | _ => none

/-- The first of the delimiters that `s` starts with, and what follows it. -/
def delimAt (ds : List Str) (s : Str) : Option Str :=
  match ds with
  | [] => none
  | d :: ds => match List.isPrefixOf? d s with
    | some rest => some rest
    | none => delimAt ds s

/-- `\s*(?P<vi>delim)` at the beginning of `s`: the longest run of blanks first, then shorter ones. -/
def blanksDelim (ds : List Str) (s : Str) : Option Str :=
  match s with
  | [] => delimAt ds []
  | c :: cs =>
    if isSpace c = true then
      match blanksDelim ds cs with
      | some rest => some rest
      | none => delimAt ds (c :: cs)
    else delimAt ds (c :: cs)

/-- `_OPT_NV_TMPL` (configparser.py:558-566) on a stripped line: the shortest option that is followed by blanks
and a delimiter, and the value after the delimiter with the blanks dropped; or the whole line and no value. -/
def splitOption (ds : List Str) (s : Str) : Str × Option Str :=
  match blanksDelim ds s with
  | some rest => ([], some (lstripBy isSpace rest))
  | none => match s with
    | [] => ([], none)
    | c :: cs => (c :: (splitOption ds cs).1, (splitOption ds cs).2)

/-- `"|".join(...)` of no delimiter is the empty pattern (configparser.py:599). -/
def delimPatterns (ds : List Str) : List Str := if ds = [] then [[]] else ds

/-- A value while reading: `none` for an option without delimiter, otherwise its lines. -/
abbrev RawLines := Option (List Str)

/-- The state of `_read` (configparser.py:991-997) and of the parser it fills. `cursect` is kept by name.
Values read from earlier files are kept as one line: `_join_multiline_values` leaves such strings alone, and it
would not change them. -/
structure Reader where
  sections : Dict Str (Dict Str RawLines) := []
  common : Dict Str RawLines := []
  added : List (Str × Option Str) := []     -- elements_added: (section, none) or (section, option)
  cursect : Option Str := none
  optname : Option Str := none
  indent : Nat := 0
  bad : Bool := false                       -- e is not None
  deriving DecidableEq, Repr

namespace Reader

/-- The dict of the current section. -/
def cur (commonName : Str) (r : Reader) (s : Str) : Dict Str RawLines :=
  if s = commonName then r.common else (Dict.get? r.sections s).getD []

/-- Replace the dict of a section. -/
def putCur (commonName : Str) (r : Reader) (s : Str) (d : Dict Str RawLines) : Reader :=
  if s = commonName then { r with common := d } else { r with sections := Dict.set r.sections s d }

/-- The current option if there is one to continue: `cursect is not None and optname` (an empty name is false). -/
def pending (r : Reader) : Option (Str × Str) :=
  match r.cursect, r.optname with
  | some s, some k => if k = [] then none else some (s, k)
  | _, _ => none

/-- configparser.py:1043-1061: a section header. -/
def header (commonName : Str) (r : Reader) (name : Str) : Option PyExc × Reader :=
  if Dict.mem r.sections name = true then
    if (name, none) ∈ r.added then (some .duplicateSection, r)
    else (none, { r with cursect := some name, added := (name, none) :: r.added, optname := none })
  else if name = commonName then (none, { r with cursect := some name, optname := none })
  else (none, { r with sections := Dict.set r.sections name [], cursect := some name,
                       added := (name, none) :: r.added, optname := none })

/-- configparser.py:1067-1085: an option line in section `s`. -/
def option (commonName : Str) (ds : List Str) (r : Reader) (s value : Str) : Option PyExc × Reader :=
  let (k, v) := splitOption (delimPatterns ds) value
  let r := if k = [] then { r with bad := true } else r
  let k := rstrip k
  if (s, some k) ∈ r.added then (some .duplicateOption, { r with optname := some k })
  else
    let r := { r with added := (s, some k) :: r.added, optname := some k }
    (none, r.putCur commonName s (Dict.set (r.cur commonName s) k (v.map fun v => [strip v])))

/-- configparser.py:999-1091: one line. -/
def line (commonName : Str) (ds : List Str) (r : Reader) (l : Str) : Option PyExc × Reader :=
  let value := strip l
  if value.head? = some '#' ∨ value.head? = some ';' then (none, r)
  else if value = [] then
    match r.pending with
    | some (s, k) => match Dict.get? (r.cur commonName s) k with
      | some (some ls) => (none, r.putCur commonName s (Dict.set (r.cur commonName s) k (some (ls ++ [[]]))))
      | _ => (none, r)
    | none => (none, r)
  else
    let ind := (l.takeWhile isSpace).length
    match (if r.indent < ind then r.pending else none) with
    | some (s, k) => match Dict.get? (r.cur commonName s) k with
      | some (some ls) => (none, r.putCur commonName s (Dict.set (r.cur commonName s) k (some (ls ++ [value]))))
      | _ => (some .attributeError, r)                 -- `None.append`
    | none =>
      let r := { r with indent := ind }
      match sectionHeader value with
      | some name => r.header commonName name
      | none => match r.cursect with
        | none => (some .missingSectionHeader, r)
        | some s => r.option commonName ds s value

/-- configparser.py:999-1091: all lines, until one raises. -/
def lines (commonName : Str) (ds : List Str) : List Str → Reader → Option PyExc × Reader
  | [], r => (none, r)
  | l :: ls, r => match r.line commonName ds l with
    | (none, r) => lines commonName ds ls r
    | (some e, r) => (some e, r)

/-- `'\n'.join(val).rstrip()` (configparser.py:1105). -/
def joinLines : List Str → Str
  | [] => []
  | [l] => l
  | l :: ls => l ++ '\n' :: joinLines ls

/-- configparser.py:1098-1108 `_join_multiline_values` on one dict. -/
def joinDict (d : Dict Str RawLines) : Dict Str RawLines :=
  d.map fun kv => (kv.1, kv.2.map fun ls => [rstrip (joinLines ls)])

/-- configparser.py:974-1096 `_read` of one decoded text: even when it raises, the values are joined and what was
read stays. -/
def file (commonName : Str) (ds : List Str) (text : Str) (r : Reader) : Option PyExc × Reader :=
  let res := lines commonName ds (linesOf (universalNewlines text))
    { sections := r.sections, common := r.common }
  let r' : Reader := { sections := res.2.sections.map fun sd => (sd.1, joinDict sd.2), common := joinDict res.2.common }
  match res.1 with
  | some e => (some e, r')
  | none => (if res.2.bad = true then some .parsingError else none, r')

/-- The configuration held by the parser. -/
def cfg (commonName : Str) (r : Reader) : Cfg where
  sections := r.sections.map fun sd => (sd.1, sd.2.map fun kv => (kv.1, kv.2.map joinLines))
  common := r.common.map fun kv => (kv.1, kv.2.map joinLines)
  commonName := commonName

end Reader

end CPE
