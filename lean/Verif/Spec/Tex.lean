import Verif.Py

/-!
# A scanner for the nesting structure of TeX input

Reads characters and keeps the stack of open groups: braces, `\left` and environments.
Escaped characters (`\{`) do not count; `\left` and `\right` need a delimiter; `\leftarrow` is not
`\left`.  Unescaped `%`, `$` and `#` are rejected, and so is everything that is closed by the
wrong thing.
-/

namespace Verif.Spec

/-- What can be open. -/
inductive Open where
  | brace
  | left
  | env (name : Str)
deriving DecidableEq

/-- What has just been read. -/
inductive Mode where
  /-- nothing unfinished -/
  | normal
  /-- a backslash -/
  | bs
  /-- a control word -/
  | word (w : Str)
  /-- `\left` (true) or `\right` (false), waiting for the delimiter -/
  | delim (l : Bool)
  /-- the same, and a backslash -/
  | dbs (l : Bool)
  /-- a control word that is a delimiter -/
  | dword
  /-- `\begin` (true) or `\end` (false), waiting for the brace -/
  | env (b : Bool)
  /-- the same, and a part of the name -/
  | name (b : Bool) (acc : Str)
deriving DecidableEq

/-- Open groups, innermost first, and mode. -/
abbrev Scan := List Open × Mode

/-- TeX letters. -/
def isLetter (c : Char) : Bool := ('a' ≤ c && c ≤ 'z') || ('A' ≤ c && c ≤ 'Z')

/-- A character outside of control sequences. -/
def scanPlain (K : List Open) (c : Char) : Option Scan :=
  if c = '\\' then some (K, .bs)
  else if c = '{' then some (.brace :: K, .normal)
  else if c = '}' then
    match K with
    | .brace :: K => some (K, .normal)
    | _ => none
  else if c = '%' ∨ c = '$' ∨ c = '#' then none
  else some (K, .normal)

/-- The effect of `\left` or `\right` with its delimiter. -/
def scanFence (K : List Open) (l : Bool) : Option (List Open) :=
  if l then some (.left :: K)
  else match K with
    | .left :: K => some K
    | _ => none

/-- Characters that are no delimiters. -/
def noDelim (c : Char) : Bool := isLetter c || ['{', '}', '%', '$', '#', '&', '_', '^', '~'].contains c

/-- A character after `\left` or `\right`. -/
def scanDelim (K : List Open) (l : Bool) (c : Char) : Option Scan :=
  if isSpace c then some (K, .delim l)
  else if c = '\\' then some (K, .dbs l)
  else if noDelim c then none
  else (scanFence K l).map fun K => (K, .normal)

/-- A character after `\begin` or `\end`. -/
def scanEnv (K : List Open) (b : Bool) (c : Char) : Option Scan :=
  if isSpace c then some (K, .env b)
  else if c = '{' then some (K, .name b [])
  else none

/-- A character of the name of an environment. -/
def scanName (K : List Open) (b : Bool) (acc : Str) (c : Char) : Option Scan :=
  if c = '}' then
    if b then some (.env acc :: K, .normal)
    else match K with
      | .env n :: K => if n = acc then some (K, .normal) else none
      | _ => none
  else if isSpace c ∨ c = '\\' ∨ c = '{' then none
  else some (K, .name b (acc ++ [c]))

/-- A character after a finished control word. -/
def scanAfter (K : List Open) (w : Str) (c : Char) : Option Scan :=
  if w = c!"left" then scanDelim K true c
  else if w = c!"right" then scanDelim K false c
  else if w = c!"begin" then scanEnv K true c
  else if w = c!"end" then scanEnv K false c
  else scanPlain K c

/-- One character. -/
def scanStep : Scan → Char → Option Scan
  | (K, .normal), c => scanPlain K c
  | (K, .bs), c => if isLetter c then some (K, .word [c]) else some (K, .normal)
  | (K, .word w), c => if isLetter c then some (K, .word (w ++ [c])) else scanAfter K w c
  | (K, .delim l), c => scanDelim K l c
  | (K, .dbs l), c =>
    if isSpace c then none
    else (scanFence K l).map fun K => (K, if isLetter c then .dword else .normal)
  | (K, .dword), c => if isLetter c then some (K, .dword) else scanPlain K c
  | (K, .env b), c => scanEnv K b c
  | (K, .name b acc), c => scanName K b acc c

/-- A text. -/
def scan : Scan → Str → Option Scan
  | st, [] => some st
  | st, c :: s => (scanStep st c).bind fun st => scan st s

/-- Nothing is unfinished. -/
def Mode.complete : Mode → Bool
  | .normal => true
  | .dword => true
  | .word w => ![c!"left", c!"right", c!"begin", c!"end"].contains w
  | _ => false

/-- Groups, delimiters and environments are properly nested and complete. -/
def Nested (s : Str) : Prop := ∃ m, scan ([], .normal) s = some ([], m) ∧ m.complete = true

end Verif.Spec
