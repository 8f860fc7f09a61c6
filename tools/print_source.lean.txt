import Verif.Source.Semantics

/-! Prints the syntax trees of `Verif/Source/Code.lean`, and the tables, as Python text.
Run by tools/check_source.py, which compares it with the files in /repo. -/

namespace Verif.Src
deriving instance Repr for Ident

def id' (x : Ident) : String := ((toString (repr x)).splitOn ".").getLast!

def hex (n : Nat) : String := String.ofList (Nat.toDigits 16 n)

/-- A string literal, every character by its number. -/
def lit (s : Str) : String :=
  "'" ++ String.join (s.map fun c => "\\U" ++ String.ofList (List.replicate (8 - (hex c.toNat).length) '0') ++ hex c.toNat) ++ "'"

/-- The text of an f-string. -/
def flit (s : Str) : String :=
  String.join (s.map fun c => if c = '{' then "{{" else if c = '}' then "}}" else
    "\\U" ++ String.ofList (List.replicate (8 - (hex c.toNat).length) '0') ++ hex c.toNat)

def Cmp.py : Cmp → String
  | .eq => "==" | .ne => "!=" | .lt => "<" | .le => "<=" | .gt => ">" | .ge => ">="
  | .mem => "in" | .notMem => "not in" | .isNot => "is not"

partial def Expr.py : Expr → String
  | .none => "None"
  | .bool true => "True"
  | .bool false => "False"
  | .int i => if i < 0 then s!"(-{-i})" else s!"({i})"
  | .str [] => "''"
  | .str s => lit s
  | .name x => id' x
  | .attr e a => s!"({e.py}).{id' a}"
  | .super _ a => s!"super().{id' a}"
  | .item e k => s!"({e.py})[{k.py}]"
  | .slice e lo hi => s!"({e.py})[{lo.py}:{hi.py}]"
  | .call f args ks vs => s!"({f.py})({String.join ((args.map fun a => a.py ++ ", ") ++ (ks.zip vs).map fun p => id' p.1 ++ "=" ++ p.2.py ++ ", ")})"
  | .fstr ps => "f\"\"\"" ++ String.join (ps.map fun | .str s => flit s | e => "{" ++ e.py ++ "}") ++ "\"\"\""
  | .list es => "[" ++ String.join (es.map fun e => e.py ++ ", ") ++ "]"
  | .dict ks vs => "{" ++ String.join ((ks.zip vs).map fun p => lit p.1 ++ ": " ++ p.2.py ++ ", ") ++ "}"
  | .comp e x it cs => s!"[{e.py} for {id' x} in {it.py}{String.join (cs.map fun c => " if " ++ c.py)}]"
  | .anyGen e x it => s!"any({e.py} for {id' x} in {it.py})"
  | .not e => s!"(not {e.py})"
  | .and a b => s!"({a.py} and {b.py})"
  | .or a b => s!"({a.py} or {b.py})"
  | .ite c a b => s!"({a.py} if {c.py} else {b.py})"
  | .cmp o a b => s!"({a.py} {o.py} {b.py})"
  | .add a b => s!"({a.py} + {b.py})"
  | .sub a b => s!"({a.py} - {b.py})"

mutual
partial def Stmt.py (p : String) : Stmt → String
  | .assign x e => s!"{p}{id' x} = {e.py}\n"
  | .setAttr o a e => s!"{p}({o.py}).{id' a} = {e.py}\n"
  | .setItem o k e => s!"{p}({o.py})[{k.py}] = {e.py}\n"
  | .expr e => s!"{p}{e.py}\n"
  | .ret e => s!"{p}return {e.py}\n"
  | .raise e => s!"{p}raise {e.py}\n"
  | .ite c a b => s!"{p}if {c.py}:\n" ++ block p a ++ if b.isEmpty then "" else s!"{p}else:\n" ++ block p b
  | .while c b => s!"{p}while {c.py}:\n" ++ block p b
  | .for x it b => s!"{p}for {id' x} in {it.py}:\n" ++ block p b
  | .forEnum i x it b => s!"{p}for {id' i}, {id' x} in enumerate({it.py}):\n" ++ block p b
  | .tryExcept b x h => s!"{p}try:\n" ++ block p b ++ s!"{p}except Exception as {id' x}:\n" ++ block p h
  | .continue => s!"{p}continue\n"
  | .pass => s!"{p}pass\n"
partial def block (p : String) (b : List Stmt) : String :=
  if b.isEmpty then s!"{p}  pass\n" else String.join (b.map (Stmt.py (p ++ "  ")))
end

def Func.py (p : String) (x : Ident) (f : Func) : String :=
  s!"{p}def {id' x}({String.join (f.params.map fun q => id' q.1 ++ (match q.2 with | none => "" | some s => "=" ++ lit s) ++ ", ")}):\n" ++
    block p f.body

def Class.py (x : Ident) (c : Class) : String :=
  s!"class {id' x}({(c.base.map id').getD ""}):\n" ++ String.join (c.members.map fun m => s!"  {id' m} = None\n") ++
    String.join (c.methods.map fun m => (match m.2.1 with | .plain => "" | .static => "  @staticmethod\n" | .prop => "  @property\n") ++ m.2.2.py "  " m.1) ++
    "  pass\n"

def pyDict (name : String) (d : List (Str × Str)) : String :=
  name ++ " = {" ++ String.join (d.map fun p => lit p.1 ++ ": " ++ lit p.2 ++ ",\n") ++ "}\n"

def pyPairs (name cls : String) (d : List (Str × Str × Str)) : String :=
  name ++ " = {" ++ String.join (d.map fun p => lit p.1 ++ ": " ++ cls ++ "(" ++ lit p.2.1 ++ ", " ++ lit p.2.2 ++ "),\n") ++ "}\n"

end Verif.Src

open Verif Verif.Src in
def main : IO Unit := do
  for c in classes do IO.print (c.2.py c.1)
  for f in functions do IO.print (f.2.py "" f.1)
  IO.print (pyPairs "vowels_with_accents" "AccentChar" vowelsWithAccents)
  IO.print (pyDict "accent_to_ltx_cmd" accentToLtxCmd)
  IO.print (pyPairs "special_font_chars" "SpecialFontChar" specialFontChars)
  IO.print (pyDict "all_math_symbols_by_char" allMathSymbolsByChar)
  IO.print (pyDict "all_math_symbols_by_glyph" allMathSymbolsByGlyph)
  IO.print (pyDict "math_number_by_glyph" mathNumberByGlyph)
  IO.print (pyDict "all_math_operators_by_char" allMathOperatorsByChar)
  IO.print (pyDict "all_math_operators_by_glyph" allMathOperatorsByGlyph)
