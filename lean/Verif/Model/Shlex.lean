import Verif.Base
/-
Model of the standard library's `shlex.split(s)` (posix mode, no comments, whitespace_split), which
ConfigParserEnhanced.py:1030 applies to every option key. Transcribed from CPython's
Lib/shlex.py `shlex.read_token` and `split`.
-/
namespace CPE

/-- `shlex.whitespace` = `' \t\r\n'`. -/
def isShWs (c : Char) : Bool := c == ' ' || c == '\t' || c == '\r' || c == '\n'

/-- `shlex.quotes` = `'"`. -/
def isQuote (c : Char) : Bool := c == '\'' || c == '"'

/-- The attribute `self.state` (`' '`, `'a'`, a quote character, or the escape character together with
the local variable `escapedstate`: `none` is `'a'`, `some q` the enclosing quote). -/
inductive LexState where
  | space
  | word
  | quote (q : Char)
  | escape (back : Option Char)
  deriving DecidableEq, Repr

/-- `list(lex)`: the remaining tokens, from a state, the local `quoted`, the current token and the
remaining input. ValueError: "No closing quotation" / "No escaped character". -/
def shlexGo : LexState → Bool → Str → Str → Except PyExc (List Str)
  -- state ' '
  | .space, quoted, tok, [] => .ok (if quoted || tok ≠ [] then [tok] else [])
  | .space, quoted, tok, c :: cs =>
    if isShWs c then
      if tok ≠ [] || quoted then (tok :: ·) <$> shlexGo .space false [] cs
      else shlexGo .space quoted tok cs
    else if c = '\\' then shlexGo (.escape none) quoted tok cs
    else if isQuote c then shlexGo (.quote c) quoted tok cs
    else shlexGo .word quoted [c] cs
  -- state in quotes
  | .quote _, _, _, [] => .error .valueError
  | .quote q, _, tok, c :: cs =>
    if c = q then shlexGo .word true tok cs
    else if c = '\\' && q = '"' then shlexGo (.escape (some q)) true tok cs
    else shlexGo (.quote q) true (tok ++ [c]) cs
  -- state in escape
  | .escape _, _, _, [] => .error .valueError
  | .escape none, quoted, tok, c :: cs => shlexGo .word quoted (tok ++ [c]) cs
  | .escape (some q), quoted, tok, c :: cs =>
    if c ≠ '\\' && c ≠ q then shlexGo (.quote q) quoted (tok ++ ['\\', c]) cs
    else shlexGo (.quote q) quoted (tok ++ [c]) cs
  -- state 'a'
  | .word, quoted, tok, [] => .ok (if quoted || tok ≠ [] then [tok] else [])
  | .word, quoted, tok, c :: cs =>
    if isShWs c then
      if tok ≠ [] || quoted then (tok :: ·) <$> shlexGo .space false [] cs
      else shlexGo .space quoted tok cs
    else if isQuote c then shlexGo (.quote c) quoted tok cs
    else if c = '\\' then shlexGo (.escape none) quoted tok cs
    else shlexGo .word quoted (tok ++ [c]) cs

/-- `shlex.split(s)` -/
def shlexSplit (s : Str) : Except PyExc (List Str) := shlexGo .space false [] s

/-- ConfigParserEnhanced.py:1026-1031 `_tokenize_option_key`. -/
def tokenizeOptionKey (k : Str) : Except PyExc (List Str) := shlexSplit (strip k)

end CPE
