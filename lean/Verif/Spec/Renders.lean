import Verif.Spec.Doc
import Verif.Spec.Tokens

/-!
# Declarative rules for the LaTeX of an element

`Renders inTable n s`: the DOM element `n` has the LaTeX `s`; `inTable` says whether it lies
inside an `mtable`.  One rule per construct.  The rules speak about DOM nodes, attribute values
and table entries; they do not mention the model's elements, dispatch or exceptions.
-/

namespace Verif.Spec

/-- The element children. -/
def kids (children : List Node) : List Node := children.filter Node.isElem

/-- The element children of a node. -/
def childElems : Node → List Node
  | .elem _ _ cs => kids cs
  | _ => []

/-- The tag of an element. -/
def tagIs (t : Str) : Node → Bool
  | .elem tag _ _ => tag == t
  | _ => false

/-- There is an `mtable` at some depth. -/
def HasTable (children : List Node) : Prop := ∃ n ∈ elements children, tagIs c!"mtable" n = true

/-- The element names with a meaning of their own.  All others are rows. -/
def structured : List Str :=
  [c!"math", c!"mi", c!"mo", c!"mn", c!"msqrt", c!"mfenced", c!"mfrac", c!"mroot", c!"maction",
   c!"menclose", c!"merror", c!"mphantom", c!"msup", c!"msub", c!"msubsup", c!"mmultiscripts",
   c!"mtext", c!"munderover", c!"mtable", c!"mtr", c!"mover", c!"munder"]

/-- `\left( s \right)` -/
def parens (s : Str) : Str := c!"\\left(" ++ s ++ c!"\\right)"

/-- Two or more characters are put in parentheses. -/
def parensIfLong (s : Str) : Str := if 2 ≤ s.length then parens s else s

/-- The base of a script: parentheses if it has two children and two characters. -/
def scriptBase (n : Node) (s : Str) : Str := if 2 ≤ (childElems n).length then parensIfLong s else s

/-- `{ s }` -/
def braces (s : Str) : Str := c!"{" ++ s ++ c!"}"

/-- Accents that are applied as commands to the base. -/
def accentCommands : List Str := [c!"\\hat", c!"\\bar", c!"\\underbrace", c!"\\overbrace"]

/-- Base and script of `munder` and `mover`. -/
def stacked (setCommand content accent : Str) : Str :=
  if accent ∈ accentCommands then accent ++ braces content
  else setCommand ++ braces accent ++ braces content

/-- What is put before and after the content of `menclose`. -/
def enclosures : Dict (Str × Str) :=
  [(c!"actuarial", c!"\\overline{\\left.", c!"\\right|}"),
   (c!"radical", c!"\\sqrt{", c!"}"),
   (c!"box", c!"\\boxed{", c!"}"),
   (c!"roundedbox", c!"\\boxed{", c!"}"),
   (c!"circle", c!"\\boxed{", c!"}"),
   (c!"left", c!"\\left|", c!""),
   (c!"right", c!"", c!"\\right|"),
   (c!"top", c!"\\overline{", c!"}"),
   (c!"bottom", c!"\\underline{", c!"}"),
   (c!"updiagonalstrike", c!"\\cancel{", c!"}"),
   (c!"downdiagonalstrike", c!"\\bcancel{", c!"}"),
   (c!"updiagonalarrow", c!"\\cancelto{}{", c!"}"),
   (c!"verticalstrike", c!"\\hcancel{", c!"}"),
   (c!"horizontalstrike", c!"\\hcancel{", c!"}"),
   (c!"madruwb", c!"\\underline{", c!"\\right|}"),
   (c!"phasorangle", c!"{\\angle \\underline{", c!"}}")]

/-- Long division is the default. -/
def enclosure (kind : Str) : Str × Str :=
  match enclosures.find? (fun p => p.1 = kind) with
  | some p => p.2
  | none => (c!"\\overline{\\left.\\right)", c!"}")

/-- The i-th separator character; the last one is repeated; a comma if there is none. -/
def separator (seps : Str) (i : Nat) : Str :=
  if h : i < seps.length then [seps[i]]
  else match seps.reverse with
    | c :: _ => [c]
    | [] => c!","

/-- `x0 sep0 x1 sep1 … xn` -/
def interleave (sep : Nat → Str) : List Str → Str
  | [] => []
  | [x] => x
  | x :: y :: xs => x ++ sep 0 ++ interleave (fun i => sep (i + 1)) (y :: xs)

/-- Empty delimiters are replaced by a default. -/
def orElse (s dflt : Str) : Str := if s = [] then dflt else s

/-- A fence: `\left O x0 sep0 … xn \right C`. -/
def fence (op close seps : Str) (ss : List Str) : Str :=
  c!"\\left" ++ orElse op c!"(" ++ interleave (separator seps) ss ++ c!"\\right" ++
    orElse close c!")"

/-- `\begin{env} … \end{env}` as `mfenced` writes it. -/
def environment (env : Str) (ss : List Str) : Str :=
  c!"\\begin{" ++ env ++ c!"}\n" ++ ss.flatten ++ c!"\n\\end{" ++ env ++ c!"}"

/-- The environments for pairs of delimiters. -/
def environments : List ((Str × Str) × Str) :=
  [((c!"(", c!")"), c!"pmatrix"), ((c!"[", c!"]"), c!"bmatrix"), ((c!"{", c!"}"), c!"Bmatrix"),
   ((c!"|", c!"|"), c!"vmatrix"), ((c!"||", c!"||"), c!"Vmatrix")]

/-- A matrix with its delimiters. -/
def matrix (op close : Str) (ss : List Str) : Str :=
  match environments.find? (fun p => p.1 = (op, close)) with
  | some p => environment p.2 ss
  | none =>
    if op = close then environment c!"bmatrix" ss
    else c!"\\left" ++ op ++ environment c!"matrix" ss ++ c!"\\right" ++ close

/-- The marker between postscripts and prescripts. -/
def isPre (n : Node) : Bool := tagIs c!"mprescripts" n

/-- The children of `mmultiscripts` that are rendered as prescripts. -/
def prePair : List Node → Option (Node × Node)
  | _ :: m :: x :: y :: rest =>
    if isPre m then some (x, y)
    else match rest with
      | p :: q :: _ => if isPre y then some (p, q) else none
      | _ => none
  | _ => none

/-- The children of `mmultiscripts` that are rendered as postscripts. -/
def postPair : List Node → Option (Node × Node)
  | _ :: p :: q :: _ => if isPre p then none else some (p, q)
  | _ => none

/-- A pair of scripts, if there is one. -/
def scripts (prefix_ : Str) (pair : Option (Node × Node)) (sub sup : Str) : Str :=
  if pair.isSome then prefix_ ++ braces sub ++ c!"^" ++ braces sup else []

/-- Parentheses if there is whitespace. -/
def parensIfSpace (s : Str) : Str := if (∃ c ∈ s, isSpace c = true) then parens s else s

/-- The action type shows all children. -/
def isToggle (actiontype : Str) : Prop := actiontype = c!"toggle" ∨ actiontype = []

instance (s : Str) : Decidable (isToggle s) := by unfold isToggle; infer_instance

/-- The rules. -/
inductive Renders : Bool → Node → Str → Prop
  | row {b tag A cs ss} : tag ∉ structured → (kids cs).length = ss.length →
      (∀ p ∈ (kids cs).zip ss, Renders b p.1 p.2) → Renders b (.elem tag A cs) (join c!" " ss)
  | math {b A cs ss} : (kids cs).length = ss.length →
      (∀ p ∈ (kids cs).zip ss, Renders b p.1 p.2) →
      Renders b (.elem c!"math" A cs) (normalize (join c!" " ss))
  | mi {b A cs s} : MiSymbol (normalize (tokenData cs)) s →
      Renders b (.elem c!"mi" A cs) (applyAll (fonts miVariants [] (attr A c!"mathvariant")) s)
  | mo {b A cs s} : MoSymbol (normalize (tokenData cs)) s → Renders b (.elem c!"mo" A cs) s
  | mn {b A cs s} : MnSymbol (normalize (tokenData cs)) s → Renders b (.elem c!"mn" A cs) s
  | mtext {b A cs s} :
      MText (fonts textVariants [c!"\\text"] (attr A c!"mathvariant")) (strip (tokenData cs)) s →
      Renders b (.elem c!"mtext" A cs) s
  | msqrt {b A cs ss} : (kids cs).length = ss.length →
      (∀ p ∈ (kids cs).zip ss, Renders b p.1 p.2) →
      Renders b (.elem c!"msqrt" A cs) (c!"\\sqrt" ++ braces (join c!" " ss))
  | merror {b A cs ss} : (kids cs).length = ss.length →
      (∀ p ∈ (kids cs).zip ss, Renders b p.1 p.2) →
      Renders b (.elem c!"merror" A cs) (c!"\\color{red}" ++ braces (join c!" " ss))
  | menclose {b A cs ss} : (kids cs).length = ss.length →
      (∀ p ∈ (kids cs).zip ss, Renders b p.1 p.2) →
      Renders b (.elem c!"menclose" A cs)
        ((enclosure (attr A c!"notation")).1 ++ join c!" " ss ++ (enclosure (attr A c!"notation")).2)
  | mphantom {b A cs} : Renders b (.elem c!"mphantom" A cs) []
  | mfrac {b A cs n d sn sd} : kids cs = [n, d] → attr A c!"bevelled" = [] → Renders b n sn →
      Renders b d sd → Renders b (.elem c!"mfrac" A cs) (c!"\\frac" ++ braces sn ++ braces sd)
  | bevelled {b A cs n d sn sd} : kids cs = [n, d] → attr A c!"bevelled" ≠ [] → Renders b n sn →
      Renders b d sd →
      Renders b (.elem c!"mfrac" A cs) (parensIfLong sn ++ c!"/" ++ parensIfLong sd)
  | mroot {b A cs n i sn si} : kids cs = [n, i] → Renders b n sn → Renders b i si →
      Renders b (.elem c!"mroot" A cs) (c!"\\sqrt[" ++ si ++ c!"]" ++ braces sn)
  | msup {b A cs x e sx se} : kids cs = [x, e] → Renders b x sx → Renders b e se →
      Renders b (.elem c!"msup" A cs) (scriptBase x sx ++ c!"^" ++ braces se)
  | msub {b A cs x e sx se} : kids cs = [x, e] → Renders b x sx → Renders b e se →
      Renders b (.elem c!"msub" A cs) (scriptBase x sx ++ c!"_" ++ braces se)
  | msubsup {b A cs x d e sx sd se} : kids cs = [x, d, e] → Renders b x sx → Renders b d sd →
      Renders b e se →
      Renders b (.elem c!"msubsup" A cs) (scriptBase x sx ++ c!"_" ++ braces sd ++ c!"^" ++ braces se)
  | munder {b A cs x a sx sa} : kids cs = [x, a] → Renders b x sx → Renders b a sa →
      Renders b (.elem c!"munder" A cs) (stacked c!"\\underset" sx sa)
  | mover {b A cs x a sx sa} : kids cs = [x, a] → Renders b x sx → Renders b a sa →
      Renders b (.elem c!"mover" A cs) (stacked c!"\\overset" sx sa)
  | munderover {b A cs x d e sx sd se} : kids cs = [x, d, e] → Renders b x sx → Renders b d sd →
      Renders b e se →
      Renders b (.elem c!"munderover" A cs) (sx ++ c!"_" ++ braces sd ++ c!"^" ++ braces se)
  | mmultiscripts {b A cs x ks sx s1 s2 s3 s4} : kids cs = x :: ks → 2 ≤ ks.length →
      Renders b x sx →
      (∀ p q, prePair (kids cs) = some (p, q) → Renders b p s1) →
      (∀ p q, prePair (kids cs) = some (p, q) → Renders b q s2) →
      (∀ p q, postPair (kids cs) = some (p, q) → Renders b p s3) →
      (∀ p q, postPair (kids cs) = some (p, q) → Renders b q s4) →
      Renders b (.elem c!"mmultiscripts" A cs)
        (scripts c!"\\_" (prePair (kids cs)) s1 s2 ++ parensIfSpace sx ++
          scripts c!"_" (postPair (kids cs)) s3 s4)
  | toggle {b A cs ss} : isToggle (attr A c!"actiontype") → (kids cs).length = ss.length →
      (∀ p ∈ (kids cs).zip ss, Renders b p.1 p.2) →
      Renders b (.elem c!"maction" A cs) (join c!" \\Longrightarrow " ss)
  | maction {b A cs x ks s} : ¬ isToggle (attr A c!"actiontype") → kids cs = x :: ks →
      Renders b x s → Renders b (.elem c!"maction" A cs) s
  | mfenced {b A cs ss} : ¬ HasTable cs → (kids cs).length = ss.length →
      (∀ p ∈ (kids cs).zip ss, Renders b p.1 p.2) →
      Renders b (.elem c!"mfenced" A cs)
        (fence (attr A c!"open") (attr A c!"close") (attr A c!"separators") ss)
  | matrix {b A cs ss} : HasTable cs → (kids cs).length = ss.length →
      (∀ p ∈ (kids cs).zip ss, Renders b p.1 p.2) →
      Renders b (.elem c!"mfenced" A cs) (Spec.matrix (attr A c!"open") (attr A c!"close") ss)
  | mtable {A cs ss} : attr A c!"innerTable" = [] → (kids cs).length = ss.length →
      (∀ p ∈ (kids cs).zip ss, Renders true p.1 p.2) →
      Renders false (.elem c!"mtable" A cs) (join c!" \\\\\n" ss)
  | innerTable {b A cs ss} : b = true ∨ attr A c!"innerTable" ≠ [] → (kids cs).length = ss.length →
      (∀ p ∈ (kids cs).zip ss, Renders true p.1 p.2) →
      Renders b (.elem c!"mtable" A cs)
        (c!"\\begin{matrix}" ++ join c!" \\\\\n" ss ++ c!"\\end{matrix}")
  | mtr {b A cs ss} : (kids cs).length = ss.length →
      (∀ p ∈ (kids cs).zip ss, Renders b p.1 p.2) →
      Renders b (.elem c!"mtr" A cs) (join c!" & " ss)

end Verif.Spec
