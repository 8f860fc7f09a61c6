import Verif.Py
import Verif.Source.Names

/-!
# Syntax trees of the fragment of Python that the code base is written in

The constructors mirror those of Python's `ast` module.  Augmented assignments are
written out (`x += e` as `x = x + e`; the operands are immutable), `elif` is a nested
`if`, `any(… for …)` has its own constructor because generators are lazy, and
`super().m` carries the base class it refers to (all inheritance is single).
-/

namespace Verif.Src

/-- Comparison operators. -/
inductive Cmp where
  | eq | ne | lt | le | gt | ge | mem | notMem | isNot
deriving DecidableEq

/-- Expressions. -/
inductive Expr where
  | none
  | bool (b : Bool)
  | int (i : Int)
  | str (s : Str)
  | name (x : Ident)
  /-- `e.a` -/
  | attr (e : Expr) (a : Ident)
  /-- `super().a` where the base class is `base` -/
  | super (base a : Ident)
  /-- `e[k]` -/
  | item (e k : Expr)
  /-- `e[lo:hi]` -/
  | slice (e lo hi : Expr)
  /-- `f(args, k=v, …)` -/
  | call (f : Expr) (args : List Expr) (kwNames : List Ident) (kwValues : List Expr)
  /-- `f"…"`: literal parts are string constants -/
  | fstr (parts : List Expr)
  | list (es : List Expr)
  | dict (keys : List Str) (values : List Expr)
  /-- `[elt for x in it if cond …]` -/
  | comp (elt : Expr) (x : Ident) (it : Expr) (conds : List Expr)
  /-- `any(elt for x in it)` -/
  | anyGen (elt : Expr) (x : Ident) (it : Expr)
  | not (e : Expr)
  | and (a b : Expr)
  | or (a b : Expr)
  /-- `a if c else b` -/
  | ite (c a b : Expr)
  | cmp (op : Cmp) (a b : Expr)
  | add (a b : Expr)
  | sub (a b : Expr)

/-- Statements. -/
inductive Stmt where
  | assign (x : Ident) (e : Expr)
  /-- `o.a = e` -/
  | setAttr (o : Expr) (a : Ident) (e : Expr)
  /-- `o[k] = e` -/
  | setItem (o k e : Expr)
  | expr (e : Expr)
  | ret (e : Expr)
  | raise (e : Expr)
  | ite (c : Expr) (a b : List Stmt)
  | while (c : Expr) (body : List Stmt)
  | for (x : Ident) (it : Expr) (body : List Stmt)
  /-- `for i, x in enumerate(it)` -/
  | forEnum (i x : Ident) (it : Expr) (body : List Stmt)
  /-- `try: body` `except Exception as x: handler` -/
  | tryExcept (body : List Stmt) (x : Ident) (handler : List Stmt)
  | continue
  | pass

/-- A function: parameters with their defaults (only strings occur), and the body. -/
structure Func where
  params : List (Ident × Option Str)
  body : List Stmt

/-- How a method is decorated. -/
inductive Deco where
  | plain | static | prop
deriving DecidableEq

/-- A class: its base class (`ABC` and `Enum` left out), its methods, and its members if
it is an enumeration. -/
structure Class where
  base : Option Ident
  methods : List (Ident × Deco × Func)
  members : List Ident

end Verif.Src
