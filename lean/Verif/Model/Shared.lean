import Verif.Model.Xml

/-!
# An adapter object that is used by several threads

`XmlToMathMLAdapter` (adapter.py) keeps the text in the attribute `_xml` of the object.  Here its method
`convert` is a program whose steps are the reads and writes of this attribute, each of which is atomic in
CPython.  `MathMLToLaTeX.convert` creates an object of its own for every call.
-/

namespace Verif

/-- Programs that read and write the attribute. -/
inductive CellProg (α : Type) where
  /-- the end -/
  | ret (a : α)
  /-- use the value of `self._xml` -/
  | read (k : Str → CellProg α)
  /-- `self._xml = s` -/
  | write (s : Str) (p : CellProg α)

/-- The program run without interruption: its result and the text it leaves. -/
def CellProg.exec {α : Type} : CellProg α → Str → α × Str
  | .ret a, c => (a, c)
  | .read k, c => (k c).exec c
  | .write s p, _ => p.exec s

/-- One step; a program that has ended stays as it is. -/
def CellProg.step {α : Type} : CellProg α → Str → CellProg α × Str
  | .ret a, c => (.ret a, c)
  | .read k, c => (k c, c)
  | .write s p, _ => (p, s)

/-- What a call of the method gives: DOM elements or an exception. -/
abbrev Found := Except Exc (List Node)

/-- adapter.py 37–51 `_mathml_elements` with `n` attempts left (26–27 `_fix_error`: the attribute is read
again for the repair, and written). -/
def attemptsP (env : Env) : Nat → Option Exc → CellProg Found
  | 0, some e => .ret (.error e)
  | 0, none => .ret (.ok [])
  | n + 1, _ => .read fun xml =>
    match env.parse xml with
    | .ok dom => .ret (.ok (mathElements dom))
    | .error e => .read fun xml' =>
      match fixError env xml' e with
      | .error e' => .ret (.error e')
      | .ok xml'' => .write xml'' (attemptsP env n (some e.toExc))

/-- adapter.py 20–24 `convert`, up to the conversion of DOM nodes, which does not use the attribute. -/
def domElementsP (env : Env) (xml : Str) : CellProg Found :=
  .write (removeLineBreaks xml) <| .read fun s => .write (removeMsWordPrefixes s) <| attemptsP env 5 none

end Verif
