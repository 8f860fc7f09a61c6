import Verif.Spec.Proper
import Verif.Spec.Reads

/-!
# The items that MathML stands for

`Means inTable l n l'`: after the items `l`, the element `n` brings them to `l'`.  A fraction is a
fraction, a script belongs to the whole of its base, a matrix has its rows and cells; only the
symbols of tokens are looked up as LaTeX.
-/

namespace Verif.Spec

/-- Commands around some items, outermost first. -/
def inFonts : List Str → List Item → List Item
  | [], v => v
  | c :: cs, v =>
    [if textMacros.contains c.tail then .text c.tail (inFonts cs v) else .app c.tail [inFonts cs v]]

/-- The characters of a text, blanks left out. -/
def charItems (w : Str) : List Item := (w.filter fun c => !isSpace c).map fun c => .sym (.char c)

/-- A text: words, and single characters that are symbols. -/
inductive MeansText (cmds : List Str) : List Item → Str → List Item → Prop
  | nil {l} : MeansText cmds l [] l
  | run {l l' w rest} : w ≠ [] → (∀ c ∈ w, IsTextChar c) →
      (∀ c t, rest = c :: t → ¬ IsTextChar c) → MeansText cmds (l ++ inFonts cmds (charItems w)) rest l' →
      MeansText cmds l (w ++ rest) l'
  | other {l l1 l' c s rest} : ¬ IsTextChar c → c ∉ disguised → c ≠ '\'' →
      MiSymbol (normalize [c]) s → Reads (.run l l1) (tokens s) → MeansText cmds l1 rest l' →
      MeansText cmds l (c :: rest) l'

/-- `( … )` -/
def inParens (v : List Item) : Item := .fence (.char '(') (.char ')') v

/-- What brings the items from `l0` to `l1` is one item after `l`, or is put in parentheses. -/
def OneItem (alone wrapped : Prop) (l l0 l1 : List Item) (i : Item) : Prop :=
  (alone ∧ l0 = l ∧ l1 = l ++ [i]) ∨ (wrapped ∧ l0 = [] ∧ i = inParens l1)

/-- The same of the base of a script. -/
def OneBase (b : Bool) (n : Node) : List Item → List Item → List Item → Item → Prop :=
  OneItem ((childElems n).length < 2 ∨ Short b n) (2 ≤ (childElems n).length ∧ Long b n)

/-- What brings the items from `l0` to `l1` stands after `l` as it is, or is put in parentheses. -/
def Part (b : Bool) (n : Node) (l l0 l1 l' : List Item) : Prop :=
  (Short b n ∧ l0 = l ∧ l1 = l') ∨ (Long b n ∧ l0 = [] ∧ l' = l ++ [inParens l1])

/-- The same where whitespace asks for the parentheses. -/
def SpacePart (b : Bool) (n : Node) (l l0 l1 l' : List Item) : Prop :=
  ((∀ s, Renders b n s → ∀ c ∈ s, isSpace c = false) ∧ l0 = l ∧ l1 = l') ∨
    ((∀ s, Renders b n s → ∃ c ∈ s, isSpace c = true) ∧ l0 = [] ∧ l' = l ++ [inParens l1])

/-- Scripts in front of a base: an underscore is printed, the lower script stands beside it on the
line, and the upper script is the superscript of the lower one. -/
def underscore (v w : List Item) : List Item := [.sym (.symb '_'), .sup (.group v) w]

/-- What `menclose` makes of its content. -/
def enclosedItems : List (Str × (List Item → Item)) :=
  [(c!"actuarial", fun v => .app c!"overline" [[.fence (.char '.') (.char '|') v]]),
   (c!"radical", fun v => .app c!"sqrt" [v]),
   (c!"box", fun v => .app c!"boxed" [v]),
   (c!"roundedbox", fun v => .app c!"boxed" [v]),
   (c!"circle", fun v => .app c!"boxed" [v]),
   (c!"top", fun v => .app c!"overline" [v]),
   (c!"bottom", fun v => .app c!"underline" [v]),
   (c!"updiagonalstrike", fun v => .app c!"cancel" [v]),
   (c!"downdiagonalstrike", fun v => .app c!"bcancel" [v]),
   (c!"updiagonalarrow", fun v => .app c!"cancelto" [[], v]),
   (c!"phasorangle", fun v => .group [.sym (.word c!"angle"), .app c!"underline" [v]])]

/-- The item of a separator. -/
def sepItem (seps : Str) (i : Nat) : Item := .sym (.char ((separator seps i).headD ','))

/-- The arrow between the states of an action. -/
def arrowItem : Item := .sym (.word c!"Longrightarrow")

/-- The rules. -/
inductive Means : Bool → List Item → Node → List Item → Prop
  | row {b l tag A cs} {ls : Nat → List Item} : tag ∉ structured → ls 0 = l →
      (∀ i (h : i < (kids cs).length), Means b (ls i) (kids cs)[i] (ls (i + 1))) →
      Means b l (.elem tag A cs) (ls (kids cs).length)
  | math {b l A cs} {ls : Nat → List Item} : ls 0 = l →
      (∀ i (h : i < (kids cs).length), Means b (ls i) (kids cs)[i] (ls (i + 1))) →
      Means b l (.elem c!"math" A cs) (ls (kids cs).length)
  | mi {b l l' A cs s} : MiSymbol (normalize (tokenData cs)) s →
      fonts miVariants [] (attr A c!"mathvariant") = [] → Reads (.run l l') (tokens s) →
      Means b l (.elem c!"mi" A cs) l'
  | font {b l v A cs s} : MiSymbol (normalize (tokenData cs)) s →
      fonts miVariants [] (attr A c!"mathvariant") ≠ [] → ReadsAs s v →
      Means b l (.elem c!"mi" A cs) (l ++ inFonts (fonts miVariants [] (attr A c!"mathvariant")) v)
  | mo {b l l' A cs s} : MoSymbol (normalize (tokenData cs)) s → Reads (.run l l') (tokens s) →
      Means b l (.elem c!"mo" A cs) l'
  | mn {b l l' A cs s} : MnSymbol (normalize (tokenData cs)) s → Reads (.run l l') (tokens s) →
      Means b l (.elem c!"mn" A cs) l'
  | mtext {b l l' A cs} :
      MeansText (fonts textVariants [c!"\\text"] (attr A c!"mathvariant")) l
        (strip (tokenData cs)) l' →
      Means b l (.elem c!"mtext" A cs) l'
  | mphantom {b l A cs} : Means b l (.elem c!"mphantom" A cs) l
  | msqrt {b l A cs} {ls : Nat → List Item} : ls 0 = [] →
      (∀ i (h : i < (kids cs).length), Means b (ls i) (kids cs)[i] (ls (i + 1))) →
      Means b l (.elem c!"msqrt" A cs) (l ++ [.app c!"sqrt" [ls (kids cs).length]])
  | merror {b l A cs} {ls : Nat → List Item} : ls 0 = [] →
      (∀ i (h : i < (kids cs).length), Means b (ls i) (kids cs)[i] (ls (i + 1))) →
      Means b l (.elem c!"merror" A cs) (l ++ [.red (ls (kids cs).length)])
  | menclose {b l A cs} {ls : Nat → List Item} {f : List Item → Item} :
      (attr A c!"notation", f) ∈ enclosedItems → ls 0 = [] →
      (∀ i (h : i < (kids cs).length), Means b (ls i) (kids cs)[i] (ls (i + 1))) →
      Means b l (.elem c!"menclose" A cs) (l ++ [f (ls (kids cs).length)])
  | longdiv {b l A cs} {ls : Nat → List Item} :
      (∀ p ∈ enclosures, p.1 ≠ attr A c!"notation") →
      ls 0 = [.fence (.char '.') (.char ')') []] →
      (∀ i (h : i < (kids cs).length), Means b (ls i) (kids cs)[i] (ls (i + 1))) →
      Means b l (.elem c!"menclose" A cs) (l ++ [.app c!"overline" [ls (kids cs).length]])
  | mfrac {b l v w A cs n d} : kids cs = [n, d] → attr A c!"bevelled" = [] →
      Means b [] n v → Means b [] d w →
      Means b l (.elem c!"mfrac" A cs) (l ++ [.app c!"frac" [v, w]])
  | bevelled {b l l0 l1 l2 l3 l4 l' A cs n d} : kids cs = [n, d] → attr A c!"bevelled" ≠ [] →
      Part b n l l0 l1 l2 → Means b l0 n l1 →
      Part b d (l2 ++ [.sym (.char '/')]) l3 l4 l' → Means b l3 d l4 →
      Means b l (.elem c!"mfrac" A cs) l'
  | mroot {b l v w A cs n i} : kids cs = [n, i] → (∀ s, Renders b i s → ']' ∉ s) →
      Means b [] n v → Means b [] i w →
      Means b l (.elem c!"mroot" A cs) (l ++ [.root w v])
  | msup {b l l0 l1 v i A cs x e} : kids cs = [x, e] → OneBase b x l l0 l1 i → Means b l0 x l1 →
      i.hasSup = false → Means b [] e v → Means b l (.elem c!"msup" A cs) (l ++ [.sup i v])
  | msub {b l l0 l1 v i A cs x e} : kids cs = [x, e] → OneBase b x l l0 l1 i → Means b l0 x l1 →
      i.hasSub = false → Means b [] e v → Means b l (.elem c!"msub" A cs) (l ++ [.sub i v])
  | msubsup {b l l0 l1 v w i A cs x d e} : kids cs = [x, d, e] → OneBase b x l l0 l1 i →
      Means b l0 x l1 → i.hasSub = false → i.hasSup = false → Means b [] d v → Means b [] e w →
      Means b l (.elem c!"msubsup" A cs) (l ++ [.sup (.sub i v) w])
  | munderover {b l v w i A cs x d e} : kids cs = [x, d, e] → Means b l x (l ++ [i]) →
      i.hasSub = false → i.hasSup = false → Means b [] d v → Means b [] e w →
      Means b l (.elem c!"munderover" A cs) (l ++ [.sup (.sub i v) w])
  | under {b l v w A cs x a} : kids cs = [x, a] → Means b [] x v → Means b [] a w →
      Means b l (.elem c!"munder" A cs) (l ++ [.app c!"underset" [w, v]])
  | underAccent {b l v A cs x a s} : kids cs = [x, a] → Means b [] x v → s ∈ accentCommands →
      Renders b a s → Means b l (.elem c!"munder" A cs) (l ++ [.app s.tail [v]])
  | over {b l v w A cs x a} : kids cs = [x, a] → Means b [] x v → Means b [] a w →
      Means b l (.elem c!"mover" A cs) (l ++ [.app c!"overset" [w, v]])
  | overAccent {b l v A cs x a s} : kids cs = [x, a] → Means b [] x v → s ∈ accentCommands →
      Renders b a s → Means b l (.elem c!"mover" A cs) (l ++ [.app s.tail [v]])
  | postscripts {b l l0 l1 v w i A cs x d e} : kids cs = [x, d, e] → isPre d = false →
      OneItem (∀ s, Renders b x s → ∀ c ∈ s, isSpace c = false)
        (∀ s, Renders b x s → ∃ c ∈ s, isSpace c = true) l l0 l1 i →
      Means b l0 x l1 → i.hasSub = false → i.hasSup = false → Means b [] d v → Means b [] e w →
      Means b l (.elem c!"mmultiscripts" A cs) (l ++ [.sup (.sub i v) w])
  | prescripts {b l l0 l1 l' v w A cs x m p r} : kids cs = [x, m, p, r] → isPre m = true →
      Means b [] p v → Means b [] r w → SpacePart b x (l ++ underscore v w) l0 l1 l' →
      Means b l0 x l1 → Means b l (.elem c!"mmultiscripts" A cs) l'
  | allscripts {b l l0 l1 v w v' w' i A cs x d e m p r} : kids cs = [x, d, e, m, p, r] →
      isPre d = false → isPre m = true → Means b [] p v → Means b [] r w →
      OneItem (∀ s, Renders b x s → ∀ c ∈ s, isSpace c = false)
        (∀ s, Renders b x s → ∃ c ∈ s, isSpace c = true) (l ++ underscore v w) l0 l1 i →
      Means b l0 x l1 → i.hasSub = false → i.hasSup = false → Means b [] d v' → Means b [] e w' →
      Means b l (.elem c!"mmultiscripts" A cs) (l ++ underscore v w ++ [.sup (.sub i v') w'])
  | toggle {b l A cs} {ls : Nat → List Item} : isToggle (attr A c!"actiontype") → ls 0 = l →
      (∀ i (h : i < (kids cs).length),
        Means b (if i = 0 then l else ls i ++ [arrowItem]) (kids cs)[i] (ls (i + 1))) →
      Means b l (.elem c!"maction" A cs) (ls (kids cs).length)
  | maction {b l l' A cs x ks} : ¬ isToggle (attr A c!"actiontype") → kids cs = x :: ks →
      Means b l x l' → Means b l (.elem c!"maction" A cs) l'
  | mfenced {b l A cs} {ls : Nat → List Item} : ¬ HasTable cs →
      orElse (attr A c!"open") c!"(" ∈ delimiters → orElse (attr A c!"close") c!")" ∈ delimiters →
      (∀ c ∈ attr A c!"separators", ordinary c = true ∧ isLetter c = false ∧ isSpace c = false) →
      ls 0 = [] →
      (∀ i (h : i < (kids cs).length),
        Means b (if i = 0 then [] else ls i ++ [sepItem (attr A c!"separators") (i - 1)])
          (kids cs)[i] (ls (i + 1))) →
      Means b l (.elem c!"mfenced" A cs)
        (l ++ [.fence (delimTok (orElse (attr A c!"open") c!"("))
          (delimTok (orElse (attr A c!"close") c!")")) (ls (kids cs).length)])
  | matrix {l A cs t rs env rows} : kids cs = [t] → TableOf t rs →
      ((attr A c!"open", attr A c!"close"), env) ∈ environments →
      rs ≠ [] → rs.length = rows.length →
      (∀ p ∈ rs.zip rows, cells p.1 ≠ [] ∧ (cells p.1).length = p.2.length) →
      (∀ p ∈ rs.zip rows, ∀ q ∈ (cells p.1).zip p.2, Means true [] q.1 q.2) →
      (∀ r ∈ rs.tail, NoOption r) →
      Means false l (.elem c!"mfenced" A cs) (l ++ [.matrix env rows])
  | twice {l A cs t rs rows} : kids cs = [t] → TableOf t rs →
      (∀ env, ((attr A c!"open", attr A c!"close"), env) ∉ environments) →
      attr A c!"open" = attr A c!"close" →
      rs ≠ [] → rs.length = rows.length →
      (∀ p ∈ rs.zip rows, cells p.1 ≠ [] ∧ (cells p.1).length = p.2.length) →
      (∀ p ∈ rs.zip rows, ∀ q ∈ (cells p.1).zip p.2, Means true [] q.1 q.2) →
      (∀ r ∈ rs.tail, NoOption r) →
      Means false l (.elem c!"mfenced" A cs) (l ++ [.matrix c!"bmatrix" rows])
  | delimited {l A cs t rs rows} : kids cs = [t] → TableOf t rs →
      (∀ env, ((attr A c!"open", attr A c!"close"), env) ∉ environments) →
      attr A c!"open" ≠ attr A c!"close" →
      attr A c!"open" ∈ delimiters → attr A c!"close" ∈ delimiters →
      rs ≠ [] → rs.length = rows.length →
      (∀ p ∈ rs.zip rows, cells p.1 ≠ [] ∧ (cells p.1).length = p.2.length) →
      (∀ p ∈ rs.zip rows, ∀ q ∈ (cells p.1).zip p.2, Means true [] q.1 q.2) →
      (∀ r ∈ rs.tail, NoOption r) →
      Means false l (.elem c!"mfenced" A cs)
        (l ++ [.fence (delimTok (attr A c!"open")) (delimTok (attr A c!"close"))
          [.matrix c!"matrix" rows]])
  | innerTable {b l A cs rows} : b = true ∨ attr A c!"innerTable" ≠ [] →
      kids cs ≠ [] → (kids cs).length = rows.length →
      (∀ p ∈ (kids cs).zip rows, cells p.1 ≠ [] ∧ (cells p.1).length = p.2.length) →
      (∀ p ∈ (kids cs).zip rows, ∀ q ∈ (cells p.1).zip p.2, Means true [] q.1 q.2) →
      (∀ r ∈ (kids cs).tail, NoOption r) →
      Means b l (.elem c!"mtable" A cs) (l ++ [.matrix c!"matrix" rows])

end Verif.Spec
