import Verif.Spec.Means

/-!
# Formulas as trees, and the MathML for them

Signs, fractions, roots and scripts, put together in any way.
-/

namespace Verif.Formulas
open Spec

/-- A sign: the element for it, its text, and what it is in LaTeX. -/
structure Sign where
  tag : Str
  text : Str
  tok : Tok
deriving DecidableEq

/-- Letters. -/
def letterSigns : List Sign :=
  c!"abcdefghijklmnopqrstuvwxyzABCDEFGHIJKLMNOPQRSTUVWXYZ".map fun c => ⟨c!"mi", [c], .char c⟩

/-- Greek letters. -/
def greekSigns : List Sign :=
  [⟨c!"mi", c!"α", .word c!"alpha"⟩, ⟨c!"mi", c!"β", .word c!"beta"⟩, ⟨c!"mi", c!"γ", .word c!"gamma"⟩,
   ⟨c!"mi", c!"δ", .word c!"delta"⟩, ⟨c!"mi", c!"θ", .word c!"theta"⟩, ⟨c!"mi", c!"λ", .word c!"lambda"⟩,
   ⟨c!"mi", c!"μ", .word c!"mu"⟩, ⟨c!"mi", c!"π", .word c!"pi"⟩, ⟨c!"mi", c!"σ", .word c!"sigma"⟩,
   ⟨c!"mi", c!"ω", .word c!"omega"⟩, ⟨c!"mi", c!"∞", .word c!"infty"⟩]

/-- Digits. -/
def digitSigns : List Sign := c!"0123456789".map fun c => ⟨c!"mn", [c], .char c⟩

/-- Operators. -/
def operatorSigns : List Sign :=
  [⟨c!"mo", c!"+", .char '+'⟩, ⟨c!"mo", c!"-", .char '-'⟩, ⟨c!"mo", c!"=", .char '='⟩,
   ⟨c!"mo", c!",", .char ','⟩,
   ⟨c!"mo", c!"±", .word c!"pm"⟩, ⟨c!"mo", c!"×", .word c!"times"⟩, ⟨c!"mo", c!"∈", .word c!"in"⟩,
   ⟨c!"mo", c!"∑", .word c!"sum"⟩, ⟨c!"mo", c!"∫", .word c!"int"⟩]

/-- The signs. -/
def signs : List Sign := letterSigns ++ greekSigns ++ digitSigns ++ operatorSigns

/-- The parts of formulas: a sign, a parenthesis, a fraction, a root, a formula in parentheses,
one above or below another, or scripts.  The base of a script is a sign, or a row of at least two parts. -/
inductive Expr where
  | sign (p : Sign) (h : p ∈ signs)
  | opening
  | closing
  | frac (a b : List Expr)
  | sqrt (a : List Expr)
  | fenced (a : List Expr)
  | over (a e : List Expr)
  | under (a d : List Expr)
  | root (p : Sign) (h : p ∈ signs) (a : List Expr)
  | sup (p : Sign) (h : p ∈ signs) (e : List Expr)
  | sub (p : Sign) (h : p ∈ signs) (d : List Expr)
  | both (p : Sign) (h : p ∈ signs) (d e : List Expr)
  | supRow (x y : Expr) (l e : List Expr)
  | subRow (x y : Expr) (l d : List Expr)
  | bothRow (x y : Expr) (l d e : List Expr)

/-- The element for a sign. -/
def Sign.node (p : Sign) : Node := .elem p.tag [] [.text p.text]

/-- A row. -/
def mrow (ns : List Node) : Node := .elem c!"mrow" [] ns

mutual
/-- The MathML for a part of a formula. -/
def Expr.node : Expr → Node
  | .sign p _ => p.node
  | .opening => .elem c!"mo" [] [.text c!"("]
  | .closing => .elem c!"mo" [] [.text c!")"]
  | .frac a b => .elem c!"mfrac" [] [mrow (nodes a), mrow (nodes b)]
  | .sqrt a => .elem c!"msqrt" [] (nodes a)
  | .fenced a => .elem c!"mfenced" [] [mrow (nodes a)]
  | .over a e => .elem c!"mover" [] [mrow (nodes a), mrow (nodes e)]
  | .under a d => .elem c!"munder" [] [mrow (nodes a), mrow (nodes d)]
  | .root p _ a => .elem c!"mroot" [] [mrow (nodes a), p.node]
  | .sup p _ e => .elem c!"msup" [] [p.node, mrow (nodes e)]
  | .sub p _ d => .elem c!"msub" [] [p.node, mrow (nodes d)]
  | .both p _ d e => .elem c!"msubsup" [] [p.node, mrow (nodes d), mrow (nodes e)]
  | .supRow x y l e => .elem c!"msup" [] [mrow (x.node :: y.node :: nodes l), mrow (nodes e)]
  | .subRow x y l d => .elem c!"msub" [] [mrow (x.node :: y.node :: nodes l), mrow (nodes d)]
  | .bothRow x y l d e =>
    .elem c!"msubsup" [] [mrow (x.node :: y.node :: nodes l), mrow (nodes d), mrow (nodes e)]
/-- The MathML for several parts. -/
def nodes : List Expr → List Node
  | [] => []
  | x :: l => x.node :: nodes l
end

/-- The document for a formula. -/
def mathOf (l : List Expr) : Doc := [.elem c!"math" [] (nodes l)]

end Verif.Formulas
