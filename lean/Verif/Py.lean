import Lean

/-!
# Python primitives used by the code base

`str` is modelled as a list of characters (Lean `Char` = Unicode scalar value, so
lone surrogates are not representable).  Only the methods that the code base
calls are modelled.
-/

namespace Verif

/-- Python `str`. -/
abbrev Str := List Char

end Verif

-- `c!"..."` is the explicit list of the characters of a string literal, so that
-- the kernel can compute with it directly.
open Lean Elab Term in
elab:max "c!" s:str : term => return toExpr s.getString.toList

example : c!"a\\∃\n" = "a\\∃\n".toList := rfl

namespace Verif

/-- `str.isspace` for one character, which is the separator set of `str.split()`,
`str.strip()` and of `\s` in `re` (CPython `_PyUnicode_IsWhitespace`). -/
def isSpace (c : Char) : Bool :=
  let n := c.toNat
  (9 ≤ n && n ≤ 13) || (28 ≤ n && n ≤ 32) || n == 0x85 || n == 0xA0 || n == 0x1680 ||
  (0x2000 ≤ n && n ≤ 0x200A) || n == 0x2028 || n == 0x2029 || n == 0x202F ||
  n == 0x205F || n == 0x3000

/-- Worker of `split`: the word touching the left end of the string (possibly
empty) and the list of the other words. -/
def splitAux : Str → Str × List Str
  | [] => ([], [])
  | c :: s =>
    let r := splitAux s
    if isSpace c then ([], if r.1 = [] then r.2 else r.1 :: r.2) else (c :: r.1, r.2)

/-- `s.split()`: the maximal runs of non-whitespace characters. -/
def split (s : Str) : List Str :=
  let r := splitAux s
  if r.1 = [] then r.2 else r.1 :: r.2

/-- `s.lstrip()` -/
def lstrip (s : Str) : Str := s.dropWhile isSpace

/-- `s.rstrip()` -/
def rstrip (s : Str) : Str := (s.reverse.dropWhile isSpace).reverse

/-- `s.strip()` -/
def strip (s : Str) : Str := rstrip (lstrip s)

/-- `sep.join(xs)` -/
def join (sep : Str) : List Str → Str
  | [] => []
  | [x] => x
  | x :: y :: xs => x ++ sep ++ join sep (y :: xs)

/-- Splitting at a separator character, `s.split("\n")`: never empty. -/
def splitOn (sep : Char) : Str → List Str
  | [] => [[]]
  | c :: s =>
    if c = sep then [] :: splitOn sep s
    else match splitOn sep s with
      | [] => [[c]]
      | w :: ws => (c :: w) :: ws

/-- Python sequence indexing `xs[i]` with negative indices; `none` = IndexError. -/
def pyIndex {α : Type} (xs : List α) (i : Int) : Option α :=
  if 0 ≤ i then xs[i.toNat]?
  else if (-i).toNat ≤ xs.length then xs[xs.length - (-i).toNat]? else none

/-- Python `dict` with string keys, as an association list (later entries win, as
in a dict display). -/
abbrev Dict (β : Type) := List (Str × β)

/-- `d.get(k)` -/
def Dict.get? {β : Type} : Dict β → Str → Option β
  | [], _ => none
  | (k', v) :: d, k =>
    match Dict.get? d k with
    | some w => some w
    | none => if k' = k then some v else none

/-- `d[k] = v` -/
def Dict.set {β : Type} (d : Dict β) (k : Str) (v : β) : Dict β :=
  if d.any (fun p => p.1 == k) then d.map (fun p => if p.1 = k then (k, v) else p)
  else d ++ [(k, v)]

/-- Dictionaries of XML attributes. -/
abbrev Attrs := Dict Str

/-- `attributes.get(k, "")`: absent attributes read as the empty string. -/
def Attrs.getD (a : Attrs) (k : Str) (dflt : Str) : Str :=
  (Dict.get? a k).getD dflt

/-- Exceptions that can leave the library. -/
inductive Exc where
  /-- `xml.parsers.expat.ExpatError` with its `code`, `lineno`, `offset`. -/
  | expat (code lineno offset : Nat)
  /-- any other exception raised by the parser, identified by a number -/
  | parserOther (ident : Nat)
  /-- Python `IndexError` -/
  | indexError
  /-- Python `KeyError` (only mentioned by `Verif.Model.Threads`; C53 shows that it never occurs) -/
  | keyError
  /-- el_to_tex/protocols.py 95–106, `InvalidNumberOfChildrenError` -/
  | invalidChildren (tag : Str) (expected current : Nat) (comparison : Str)
deriving DecidableEq, Repr

deriving instance DecidableEq for Except

/-- el_to_tex/protocols.py 103–105: the message of `InvalidNumberOfChildrenError`. -/
def invalidChildrenMessage (tag : Str) (expected current : Nat) (comparison : Str) : Str :=
  tag ++ c!" tag must have " ++ comparison ++ c!" " ++ (Nat.repr expected).toList ++
    c!" children. It's actually " ++ (Nat.repr current).toList

end Verif
