import Verif.Regex
import Verif.Model.Xml
import Verif.Model.Syntax

/-!
# Python's regular-expression notation, for the fragment that occurs

`compilePattern` reads a pattern as `re.compile` does.  `none`: outside the fragment.
-/

namespace Verif.Src

/-- A compiled pattern: `^` in front, the expression, `$` at the end. -/
structure Pattern where
  bos : Bool
  re : Re
  eos : Bool

/-- Case variants of a character as far as ASCII characters are concerned: a class of ASCII
characters with `re.IGNORECASE` matches `c` iff it contains one of these. -/
def caseVariants (c : Char) : List Char :=
  let n := c.toNat
  if 0x41 ≤ n ∧ n ≤ 0x5A then [c, Char.ofNat (n + 32)]
  else if 0x61 ≤ n ∧ n ≤ 0x7A then [c, Char.ofNat (n - 32)]
  else if n = 0x130 ∨ n = 0x131 then [c, 'i', 'I']
  else if n = 0x17F then [c, 's', 'S']
  else if n = 0x212A then [c, 'k', 'K']
  else [c]

/-- Membership in a class, given by its ranges. -/
def inClass (ignoreCase : Bool) (ranges : List (Char × Char)) (c : Char) : Bool :=
  (if ignoreCase then caseVariants c else [c]).any fun d =>
    ranges.any fun r => decide (r.1.toNat ≤ d.toNat) && decide (d.toNat ≤ r.2.toNat)

/-- What an open parenthesis started. -/
inductive Open where
  | group (n : Nat)
  | ahead

/-- Items (latest first) in sequence. -/
def mkSeq (items : List Re) : Re := items.reverse.foldr .seq .eps

/-- Alternatives (latest first), the last one being `r`. -/
def mkAlt : List Re → Re → Re
  | [], r => r
  | a :: as, r => mkAlt as (.alt a r)

/-- Close a parenthesis. -/
def Open.close : Open → Re → Re
  | .group n, r => .grp n r
  | .ahead, r => .nla r

/-- The characters with a meaning in patterns (besides `\`). -/
def isSpecial (c : Char) : Bool := c!"()[]{}?*+|^$.".contains c

/-- `\c` in a pattern. -/
def escaped (isWord : Char → Bool) (c : Char) : Option Re :=
  if c = 'n' then some (.chr '\n')
  else if c = 'r' then some (.chr '\r')
  else if c = 's' then some (.cls isSpace)
  else if c = 'w' then some (.cls isWord)
  else if isAsciiAlnum c then none
  else some (.chr c)

/-- A repeated item. -/
def repeated : Char → Re → Option Re
  | '*', .cls p => some (.star p)
  | '+', .cls p => some (.plus p)
  | '?', r => some (.opt r)
  | _, _ => none

mutual
/-- Read a pattern; `items` and `alts` are what has been read of the innermost open
parenthesis, `stack` the parentheses around it, `n` the number of the next group. -/
def readPattern (isWord : Char → Bool) (ic : Bool) :
    Str → List Re → List Re → List (Open × List Re × List Re) → Nat → Option (Re × Bool)
  | [], items, alts, stack, _ =>
    match stack with
    | [] => some (mkAlt alts (mkSeq items), false)
    | _ :: _ => none
  | '(' :: '?' :: '!' :: t, items, alts, stack, n =>
    readPattern isWord ic t [] [] ((.ahead, items, alts) :: stack) n
  | '(' :: t, items, alts, stack, n =>
    readPattern isWord ic t [] [] ((.group n, items, alts) :: stack) (n + 1)
  | ')' :: t, items, alts, stack, n =>
    match stack with
    | [] => none
    | (o, items', alts') :: stack =>
      readPattern isWord ic t (o.close (mkAlt alts (mkSeq items)) :: items') alts' stack n
  | '|' :: t, items, alts, stack, n => readPattern isWord ic t [] (mkSeq items :: alts) stack n
  | '[' :: t, items, alts, stack, n => readClass isWord ic t [] items alts stack n
  | '\\' :: c :: t, items, alts, stack, n =>
    match escaped isWord c with
    | none => none
    | some r => readPattern isWord ic t (r :: items) alts stack n
  | c :: t, items, alts, stack, n =>
    if c = '.' then readPattern isWord ic t (.cls isDot :: items) alts stack n
    else if c = '$' then
      match t, stack, alts with
      | [], [], [] => some (mkSeq items, true)
      | _, _, _ => none
    else if c = '*' ∨ c = '+' ∨ c = '?' then
      match items with
      | [] => none
      | r :: items =>
        match repeated c r with
        | none => none
        | some r => readPattern isWord ic t (r :: items) alts stack n
    else if c = '\\' ∨ isSpecial c then none
    else readPattern isWord ic t ((if ic then .cls (inClass true [(c, c)]) else .chr c) :: items)
      alts stack n
/-- Read a class after its `[`; `ranges` is what has been read of it. -/
def readClass (isWord : Char → Bool) (ic : Bool) :
    Str → List (Char × Char) → List Re → List Re → List (Open × List Re × List Re) → Nat →
      Option (Re × Bool)
  | [], _, _, _, _, _ => none
  | ']' :: t, ranges, items, alts, stack, n =>
    if ranges = [] then none
    else readPattern isWord ic t (.cls (inClass ic ranges) :: items) alts stack n
  | '\\' :: c :: t, ranges, items, alts, stack, n =>
    if isAsciiAlnum c then none else readClass isWord ic t ((c, c) :: ranges) items alts stack n
  | c :: '-' :: d :: t, ranges, items, alts, stack, n =>
    if c = '^' ∨ c = '\\' ∨ d = ']' ∨ d = '\\' then none
    else readClass isWord ic t ((c, d) :: ranges) items alts stack n
  | c :: t, ranges, items, alts, stack, n =>
    if c = '^' ∨ c = '\\' then none
    else readClass isWord ic t ((c, c) :: ranges) items alts stack n
end

/-- `re.compile(s, flags)`; a multi-line pattern must have no anchors here. -/
def compilePattern (isWord : Char → Bool) (ic multi : Bool) (s : Str) : Option Pattern :=
  let bos := match s with | '^' :: _ => true | _ => false
  match readPattern isWord ic (if bos then s.drop 1 else s) [] [] [] 1 with
  | none => none
  | some (re, eos) => if multi && (bos || eos) then none else some ⟨bos, re, eos⟩

/-- `re.match(p, s)` is not `None`. -/
def Pattern.matches (p : Pattern) (s : Str) : Bool :=
  (p.re.run s [] fun s' _ =>
    if p.eos && !(s' == [] || s' == ['\n']) then none else some ()).isSome

/-- `re.search(p, s)` is not `None`, for patterns without anchors. -/
def Pattern.search? (p : Pattern) (s : Str) : Option Bool :=
  if p.bos || p.eos then none else some (p.re.search s)

/-- A replacement template: `\1` … `\9` stand for groups.  (Two digits in a row, and other
escapes, are outside the fragment.) -/
def template : Str → Option (Caps → Str)
  | [] => some fun _ => []
  | '\\' :: d :: t =>
    if '1' ≤ d ∧ d ≤ '9' ∧ (t.head?.all fun c => !('0' ≤ c && c ≤ '9')) then
      (template t).map fun f g => capText (d.toNat - 48) g ++ f g
    else none
  | c :: t => if c = '\\' then none else (template t).map fun f g => c :: f g

/-- `re.sub(p, repl, s)`, for patterns without anchors. -/
def Pattern.sub? (p : Pattern) (repl s : Str) : Option Str :=
  if p.bos || p.eos then none else (template repl).map fun f => p.re.sub f s

/-- `re.escape(s)` -/
def reEscape : Str → Str
  | [] => []
  | c :: s =>
    if c!"()[]{}?*+-|^$\\.&~# \t\n\r\x0b\x0c".contains c then '\\' :: c :: reEscape s
    else c :: reEscape s

end Verif.Src
