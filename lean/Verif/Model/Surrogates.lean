import Verif.Model.Api

/-!
# Python strings with lone surrogates

A `str` of Python is a sequence of code points, and the surrogates U+D800 to U+DFFF are among them, while
`Char` leaves them out.  Here the functions that see the text of the caller are written for all strings.
A string with a surrogate cannot be encoded in UTF-8, so `parseString` raises `UnicodeEncodeError`
for it.  Documents never contain surrogates, since expat gives UTF-8.
-/

namespace Verif

/-- A code point. -/
inductive PyChar where
  /-- any code point that is no surrogate -/
  | char (c : Char)
  /-- U+D800 + n -/
  | lone (n : Fin 2048)
deriving DecidableEq, Repr

/-- A value of the type `str`. -/
abbrev PyStr := List PyChar

/-- A string without surrogates. -/
def ofStr (s : Str) : PyStr := s.map .char

/-- Encoding: `none` if there is a surrogate. -/
def toStr? : PyStr → Option Str
  | [] => some []
  | .char c :: s => (toStr? s).map (c :: ·)
  | .lone _ :: _ => none

/-- The environment; `encodeError` is the `UnicodeEncodeError`, and `fixLone` is what
`_fix_missing_attribute` would do with an `ExpatError` and a text with surrogates: anything. -/
structure PyEnv extends Env where
  encodeError : Nat
  fixLone : PyStr → (code lineno offset : Nat) → Except Exc PyStr

/-- adapter.py 29–31 `_remove_line_breaks`; the pattern is written as the filter that it is
(`removeLineBreaks` has the pattern itself, and `ofStr_removeLineBreaksPy` says that they agree). -/
def removeLineBreaksPy (xml : PyStr) : PyStr := xml.filter fun c => c != .char '\r' && c != .char '\n'

/-- adapter.py 33–35 `_remove_ms_word_prefixes`, written in the same way. -/
def removeMsWordPrefixesPy : PyStr → PyStr
  | .char 'm' :: .char 'm' :: .char 'l' :: .char ':' :: s => removeMsWordPrefixesPy s
  | c :: s => c :: removeMsWordPrefixesPy s
  | [] => []

/-- `parseString` (adapter.py 43). -/
def PyEnv.parsePy (env : PyEnv) (xml : PyStr) : Except ParseErr Doc :=
  match toStr? xml with
  | none => .error (.other env.encodeError)
  | some s => env.parse s

/-- error_handler.py 9–13 `fix_error`. -/
def fixErrorPy (env : PyEnv) (xml : PyStr) : ParseErr → Except Exc PyStr
  | .other _ => .ok xml
  | .expat code lineno offset =>
    match toStr? xml with
    | none => env.fixLone xml code lineno offset
    | some s => (fixMissingAttribute env.toEnv code lineno offset s).map ofStr

/-- adapter.py 37–51 `_mathml_elements` -/
def mathmlElementsPy (env : PyEnv) : Nat → Option Exc → PyStr → Except Exc (List Node)
  | 0, exception, _ =>
    match exception with
    | some e => .error e
    | none => .ok []
  | n + 1, _, xml =>
    match env.parsePy xml with
    | .ok dom => .ok (mathElements dom)
    | .error e =>
      match fixErrorPy env xml e with
      | .error e' => .error e'
      | .ok xml' => mathmlElementsPy env n (some e.toExc) xml'

/-- converter.py 7–18 `MathMLToLaTeX.convert` -/
def convertPy (env : PyEnv) (mathml : PyStr) : Except Exc Str :=
  match mathmlElementsPy env 5 none (removeMsWordPrefixesPy (removeLineBreaksPy mathml)) with
  | .error e => .error e
  | .ok nodes => (renderNodes nodes Heap.empty).1

end Verif
