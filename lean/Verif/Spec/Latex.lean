import Verif.Spec.Tex

/-!
# A grammar of LaTeX formulas

The text is cut into tokens as TeX does it; the grammar says which sequences of tokens are
formulas that LaTeX (with `amsmath`, `amssymb`, `cancel`, `color`, `esint` and `stmaryrd`, and an
engine that reads Unicode) accepts between two dollar signs: commands have their arguments, braces
and fences match, nothing has two superscripts or two subscripts, `&` and `\\` occur in
environments only.  It covers a part of the language
that suffices for this library; what it leaves out (`x'^{2}`, for instance) is not claimed to be
wrong.
-/

namespace Verif.Spec

/-- Tokens: a control word, a control symbol, a character. -/
inductive Tok where
  | word (w : Str)
  | symb (c : Char)
  | char (c : Char)
deriving DecidableEq

/-- What has just been read. -/
inductive Lex where
  /-- nothing unfinished -/
  | plain
  /-- a backslash -/
  | bs
  /-- a part of a control word -/
  | word (w : Str)
  /-- primes, which count as one token -/
  | prime
deriving DecidableEq

/-- A character that begins something new. -/
def lexStart (c : Char) : List Tok × Lex :=
  if c = '\\' then ([], .bs)
  else if isSpace c then ([], .plain)
  else if c = '\'' then ([.char c], .prime)
  else ([.char c], .plain)

/-- The finished tokens and the new state. -/
def lexStep : Lex → Char → List Tok × Lex
  | .plain, c => lexStart c
  | .bs, c => if isLetter c then ([], .word [c]) else ([.symb c], .plain)
  | .word w, c =>
    if isLetter c then ([], .word (w ++ [c])) else (.word w :: (lexStart c).1, (lexStart c).2)
  | .prime, c => if c = '\'' then ([], .prime) else lexStart c

/-- What is finished at the end.  A backslash at the end is kept as a character. -/
def lexEnd : Lex → List Tok
  | .plain => []
  | .bs => [.char '\\']
  | .word w => [.word w]
  | .prime => []

/-- The tokens of a text, from a state on. -/
def tokensFrom : Lex → Str → List Tok
  | st, [] => lexEnd st
  | st, c :: s => (lexStep st c).1 ++ tokensFrom (lexStep st c).2 s

/-- The tokens of a text.  Whitespace is dropped. -/
def tokens (s : Str) : List Tok := tokensFrom .plain s

/-- Characters that stand for themselves in formulas. -/
def ordinary (c : Char) : Bool :=
  decide (32 ≤ c.toNat) && decide (c.toNat ≠ 127) && !(c!"\\{}$%#&^_~'").contains c

/-- Control symbols that stand for a character. -/
def controlSymbols : Str := c!"{}%$#_&|"

/-- Control words without arguments. -/
def symbols : List Str :=
  [c!"aleph", c!"alpha", c!"angle", c!"approx", c!"ast", c!"asymp", c!"backslash", c!"because",
   c!"beta", c!"bigodot", c!"bigoplus", c!"bigotimes", c!"bigtriangleup", c!"blacksquare", c!"bot",
   c!"bowtie", c!"Box", c!"boxdot", c!"boxminus", c!"boxplus", c!"boxtimes", c!"bullet", c!"cap",
   c!"cdot", c!"cdots", c!"checkmark", c!"chi", c!"circ", c!"circlearrowleft", c!"circlearrowright",
   c!"circledcirc", c!"cong", c!"coprod", c!"cup", c!"curvearrowleft", c!"curvearrowright",
   c!"dagger", c!"dashv", c!"ddagger", c!"ddots", c!"Delta", c!"delta", c!"diamond", c!"div",
   c!"doteq", c!"dots", c!"Downarrow", c!"downarrow", c!"downdownarrows", c!"downharpoonleft",
   c!"downharpoonright", c!"ell", c!"emptyset", c!"epsilon", c!"equiv", c!"eta", c!"exists",
   c!"forall", c!"frown", c!"Gamma", c!"gamma", c!"geq", c!"geqq", c!"gg", c!"ggg", c!"gtreqqless",
   c!"gtrless", c!"gtrsim", c!"hbar", c!"heartsuit", c!"hookleftarrow", c!"hookrightarrow", c!"iff",
   c!"iiiint", c!"iiint", c!"iint", c!"imath", c!"in", c!"infty", c!"int", c!"iota", c!"Join",
   c!"kappa", c!"Lambda", c!"lambda", c!"land", c!"langle", c!"lceil", c!"ldots", c!"leadsto",
   c!"Leftarrow", c!"leftarrow", c!"leftarrowtail", c!"leftharpoondown", c!"leftharpoonup",
   c!"leftleftarrows", c!"Leftrightarrow", c!"leftrightarrow", c!"leftrightarrows",
   c!"leftrightharpoons", c!"leftrightsquigarrow", c!"leq", c!"leqq", c!"lesseqqgtr", c!"lessgtr",
   c!"lesssim", c!"lfloor", c!"ll", c!"llbracket", c!"llcorner", c!"Lleftarrow", c!"lll",
   c!"Longleftarrow", c!"Longleftrightarrow", c!"Longrightarrow", c!"looparrowleft",
   c!"looparrowright", c!"lor", c!"lozenge", c!"lrcorner", c!"Lsh", c!"ltimes", c!"mapsto",
   c!"measuredangle", c!"mho", c!"mid", c!"models", c!"mu", c!"multimap", c!"nabla", c!"ncong",
   c!"nearrow", c!"neg", c!"neq", c!"nexists", c!"ngeqslant", c!"ni", c!"nLeftarrow",
   c!"nleftarrow", c!"nLeftrightarrow", c!"nleftrightarrow", c!"nleqslant", c!"not", c!"notin",
   c!"nparallel", c!"nprec", c!"npreceq", c!"nRightarrow", c!"nrightarrow", c!"nsubseteq",
   c!"nsucc", c!"nsucceq", c!"nsupseteq", c!"nu", c!"nvDash", c!"nwarrow", c!"odot", c!"oiint",
   c!"oint", c!"Omega", c!"omega", c!"ominus", c!"oplus", c!"oslash", c!"otimes", c!"parallel",
   c!"partial", c!"perp", c!"Phi", c!"phi", c!"Pi", c!"pi", c!"pitchfork", c!"pm", c!"pounds",
   c!"prec", c!"preceq", c!"precsim", c!"prime", c!"prod", c!"propto", c!"Psi", c!"psi", c!"rangle",
   c!"rceil", c!"rfloor", c!"rho", c!"Rightarrow", c!"rightarrow", c!"rightarrowtail",
   c!"rightharpoondown", c!"rightharpoonup", c!"rightleftarrows", c!"rightleftharpoons",
   c!"rightrightarrows", c!"rightsquigarrow", c!"Rrightarrow", c!"Rsh", c!"rtimes", c!"searrow",
   c!"Sigma", c!"sigma", c!"sim", c!"simeq", c!"sqcap", c!"sqcup", c!"sqsubset", c!"sqsubseteq",
   c!"sqsupset", c!"sqsupseteq", c!"square", c!"star", c!"subset", c!"subseteq", c!"subseteqq",
   c!"subsetneq", c!"succ", c!"succeq", c!"succsim", c!"sum", c!"supset", c!"supseteq",
   c!"supseteqq", c!"supsetneq", c!"swarrow", c!"tau", c!"therefore", c!"Theta", c!"theta",
   c!"times", c!"top", c!"triangle", c!"triangledown", c!"triangleleft", c!"triangleq",
   c!"triangleright", c!"twoheadleftarrow", c!"twoheadrightarrow", c!"ulcorner", c!"Uparrow",
   c!"uparrow", c!"Updownarrow", c!"updownarrow", c!"upharpoonleft", c!"upharpoonright", c!"uplus",
   c!"Upsilon", c!"upsilon", c!"upuparrows", c!"varepsilon", c!"varnothing", c!"varphi", c!"varrho",
   c!"vartheta", c!"vartriangleleft", c!"vartriangleright", c!"Vdash", c!"vDash", c!"vdash",
   c!"vdots", c!"vee", c!"wedge", c!"wp", c!"Xi", c!"xi", c!"yen", c!"zeta"]

/-- Control words and how many arguments in braces they have. -/
def commands : List (Str × Nat) :=
  [(c!"frac", 2), (c!"dfrac", 2), (c!"sqrt", 1), (c!"overline", 1), (c!"underline", 1),
   (c!"overset", 2), (c!"underset", 2), (c!"hat", 1), (c!"bar", 1), (c!"vec", 1), (c!"dot", 1),
   (c!"ddot", 1), (c!"tilde", 1), (c!"acute", 1), (c!"grave", 1), (c!"check", 1), (c!"breve", 1),
   (c!"mathring", 1), (c!"cancel", 1), (c!"bcancel", 1), (c!"cancelto", 2), (c!"boxed", 1),
   (c!"mathbf", 1), (c!"mathit", 1), (c!"mathbb", 1), (c!"mathcal", 1), (c!"mathfrak", 1),
   (c!"mathsf", 1), (c!"mathtt", 1), (c!"overbrace", 1), (c!"underbrace", 1)]

/-- Control words whose argument is text. -/
def textMacros : List Str := [c!"text", c!"textbf", c!"textit", c!"textrm", c!"textcircled"]

/-- What can follow `\left` and `\right`. -/
def delimiter : Tok → Bool
  | .char c => (c!"()[]|/.<>").contains c
  | .symb c => (c!"{}|").contains c
  | .word w => [c!"langle", c!"rangle", c!"lceil", c!"rceil", c!"lfloor", c!"rfloor"].contains w

/-- The environments for matrices. -/
def matrixNames : List Str :=
  [c!"matrix", c!"pmatrix", c!"bmatrix", c!"Bmatrix", c!"vmatrix", c!"Vmatrix"]

/-- Whether the nucleus just read can still get a superscript, and a subscript. -/
structure Room where
  sup : Bool
  sub : Bool
deriving DecidableEq

/-- A new nucleus, or none yet. -/
def fresh : Room := ⟨true, true⟩

/-- The phrases of the grammar. -/
inductive Phrase where
  /-- a part of a formula; the scripts that are possible before and after it -/
  | run (q q' : Room)
  /-- something that can get scripts -/
  | nucleus
  /-- a formula in braces -/
  | group
  /-- that many formulas in braces -/
  | groups (n : Nat)
  /-- the argument of a text command -/
  | text
  /-- the body of a matrix -/
  | body
deriving DecidableEq

/-- A name in braces. -/
def named (name : Str) : List Tok := .char '{' :: name.map .char ++ [.char '}']

/-- The optional argument or the star of `\\`. -/
def lineOption : Tok → Bool
  | .char c => c = '[' || c = '*'
  | _ => false

/-- The grammar. -/
inductive Latex : Phrase → List Tok → Prop
  | nil {q} : Latex (.run q q) []
  | atom {q q' x f} : Latex .nucleus x → Latex (.run fresh q') f → Latex (.run q q') (x ++ f)
  | sup {b q' g f} : Latex .group g → Latex (.run ⟨false, b⟩ q') f →
      Latex (.run ⟨true, b⟩ q') (.char '^' :: (g ++ f))
  | sub {b q' g f} : Latex .group g → Latex (.run ⟨b, false⟩ q') f →
      Latex (.run ⟨b, true⟩ q') (.char '_' :: (g ++ f))
  | prime {b q' f} : Latex (.run ⟨false, b⟩ q') f → Latex (.run ⟨true, b⟩ q') (.char '\'' :: f)
  | group {q f} : Latex (.run fresh q) f → Latex .group (.char '{' :: (f ++ [.char '}']))
  | none : Latex (.groups 0) []
  | more {n g f} : Latex .group g → Latex (.groups n) f → Latex (.groups (n + 1)) (g ++ f)
  | char {c} : ordinary c = true → Latex .nucleus [.char c]
  | symb {c} : c ∈ controlSymbols → Latex .nucleus [.symb c]
  | word {w} : w ∈ symbols → Latex .nucleus [.word w]
  | braces {g} : Latex .group g → Latex .nucleus g
  | command {w n f} : (w, n) ∈ commands → Latex (.groups n) f → Latex .nucleus (.word w :: f)
  | root {q f g} : Latex (.run fresh q) f → .char ']' ∉ f → Latex .group g →
      Latex .nucleus (.word c!"sqrt" :: .char '[' :: (f ++ .char ']' :: g))
  | color {g} : Latex .group g → Latex .nucleus (.word c!"color" :: (named c!"red" ++ g))
  | text {w f} : w ∈ textMacros → Latex .text f →
      Latex .nucleus (.word w :: .char '{' :: (f ++ [.char '}']))
  | fence {l r q f} : delimiter l = true → delimiter r = true → Latex (.run fresh q) f →
      Latex .nucleus (.word c!"left" :: l :: (f ++ [.word c!"right", r]))
  | matrix {name f} : name ∈ matrixNames → Latex .body f →
      Latex .nucleus (.word c!"begin" :: (named name ++ f ++ .word c!"end" :: named name))
  | textEnd : Latex .text []
  | textChar {c f} : ordinary c = true → Latex .text f → Latex .text (.char c :: f)
  | degree {f} : Latex .text f → Latex .text (.word c!"textdegree" :: f)
  | nested {w f f'} : w ∈ textMacros → Latex .text f → Latex .text f' →
      Latex .text (.word w :: .char '{' :: (f ++ .char '}' :: f'))
  | cell {q f} : Latex (.run fresh q) f → Latex .body f
  | column {q f f'} : Latex (.run fresh q) f → Latex .body f' →
      Latex .body (f ++ .char '&' :: f')
  | line {q f f'} : Latex (.run fresh q) f → Latex .body f' →
      (∀ t u, f' = t :: u → lineOption t = false) → Latex .body (f ++ .symb '\\' :: f')

/-- The text is a formula. -/
def Formula (s : Str) : Prop := ∃ q, Latex (.run fresh q) (tokens s)

end Verif.Spec
