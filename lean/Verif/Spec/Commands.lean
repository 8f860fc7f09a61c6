import Verif.Spec.Tex
import Verif.Spec.Renders

/-! # The control words of TeX input -/

namespace Verif.Spec

/-- What has just been read: nothing special, a backslash, or a part of a control word. -/
inductive CS where
  | plain
  | bs
  | word (w : Str)
deriving DecidableEq

/-- The state after a character that is no part of a control word. -/
def CS.start (c : Char) : CS := if c = '\\' then .bs else .plain

/-- The control words in a text, in order: the longest sequences of letters behind a backslash. -/
def wordsFrom : CS → Str → List Str
  | .word w, [] => [w]
  | _, [] => []
  | .plain, c :: s => wordsFrom (.start c) s
  | .bs, c :: s => if isLetter c then wordsFrom (.word [c]) s else wordsFrom .plain s
  | .word w, c :: s =>
    if isLetter c then wordsFrom (.word (w ++ [c])) s else w :: wordsFrom (.start c) s

/-- The control words of a text. -/
def controlWords (s : Str) : List Str := wordsFrom .plain s

set_option maxRecDepth 100000 in
/-- Control words of LaTeX with the packages amsmath, amssymb, cancel, color, esint and stmaryrd. -/
def latexCommands : List Str :=
  [c!"acute", c!"aleph", c!"alpha", c!"angle", c!"approx", c!"ast", c!"asymp", c!"backslash",
   c!"bar", c!"bcancel", c!"because", c!"begin", c!"beta", c!"bigodot", c!"bigoplus",
   c!"bigotimes", c!"bigtriangleup", c!"blacksquare", c!"bot", c!"bowtie", c!"Box", c!"boxdot",
   c!"boxed", c!"boxminus", c!"boxplus", c!"boxtimes", c!"breve", c!"bullet", c!"cancel",
   c!"cancelto", c!"cap", c!"cdot", c!"cdots", c!"check", c!"checkmark", c!"chi", c!"circ",
   c!"circlearrowleft", c!"circlearrowright", c!"circledcirc", c!"color", c!"cong", c!"coprod",
   c!"cup", c!"curvearrowleft", c!"curvearrowright", c!"dagger", c!"dashv", c!"ddagger", c!"ddot",
   c!"ddots", c!"Delta", c!"delta", c!"dfrac", c!"diamond", c!"div", c!"dot", c!"doteq", c!"dots",
   c!"Downarrow", c!"downarrow", c!"downdownarrows", c!"downharpoonleft", c!"downharpoonright",
   c!"ell", c!"emptyset", c!"end", c!"epsilon", c!"equiv", c!"eta", c!"exists", c!"forall",
   c!"frac", c!"frown", c!"Gamma", c!"gamma", c!"geq", c!"geqq", c!"gg", c!"ggg", c!"grave",
   c!"gtreqqless", c!"gtrless", c!"gtrsim", c!"hat", c!"hbar", c!"heartsuit", c!"hookleftarrow",
   c!"hookrightarrow", c!"iff", c!"iiiint", c!"iiint", c!"iint", c!"imath", c!"in", c!"infty",
   c!"int", c!"iota", c!"Join", c!"kappa", c!"Lambda", c!"lambda", c!"land", c!"langle", c!"lceil",
   c!"ldots", c!"leadsto", c!"left", c!"Leftarrow", c!"leftarrow", c!"leftarrowtail",
   c!"leftharpoondown", c!"leftharpoonup", c!"leftleftarrows", c!"Leftrightarrow",
   c!"leftrightarrow", c!"leftrightarrows", c!"leftrightharpoons", c!"leftrightsquigarrow",
   c!"leq", c!"leqq", c!"lesseqqgtr", c!"lessgtr", c!"lesssim", c!"lfloor", c!"ll", c!"llbracket",
   c!"llcorner", c!"Lleftarrow", c!"lll", c!"Longleftarrow", c!"Longleftrightarrow",
   c!"Longrightarrow", c!"looparrowleft", c!"looparrowright", c!"lor", c!"lozenge", c!"lrcorner",
   c!"Lsh", c!"ltimes", c!"mapsto", c!"mathbb", c!"mathbf", c!"mathcal", c!"mathfrak", c!"mathit",
   c!"mathring", c!"mathsf", c!"mathtt", c!"measuredangle", c!"mho", c!"mid", c!"models", c!"mu",
   c!"multimap", c!"nabla", c!"ncong", c!"nearrow", c!"neg", c!"neq", c!"nexists", c!"ngeqslant",
   c!"ni", c!"nLeftarrow", c!"nleftarrow", c!"nLeftrightarrow", c!"nleftrightarrow", c!"nleqslant",
   c!"not", c!"notin", c!"nparallel", c!"nprec", c!"npreceq", c!"nRightarrow", c!"nrightarrow",
   c!"nsubseteq", c!"nsucc", c!"nsucceq", c!"nsupseteq", c!"nu", c!"nvDash", c!"nwarrow", c!"odot",
   c!"oiint", c!"oint", c!"Omega", c!"omega", c!"ominus", c!"oplus", c!"oslash", c!"otimes",
   c!"overbrace", c!"overline", c!"overset", c!"parallel", c!"partial", c!"perp", c!"Phi", c!"phi",
   c!"Pi", c!"pi", c!"pitchfork", c!"pm", c!"pounds", c!"prec", c!"preceq", c!"precsim", c!"prime",
   c!"prod", c!"propto", c!"Psi", c!"psi", c!"rangle", c!"rceil", c!"rfloor", c!"rho", c!"right",
   c!"Rightarrow", c!"rightarrow", c!"rightarrowtail", c!"rightharpoondown", c!"rightharpoonup",
   c!"rightleftarrows", c!"rightleftharpoons", c!"rightrightarrows", c!"rightsquigarrow",
   c!"Rrightarrow", c!"Rsh", c!"rtimes", c!"searrow", c!"Sigma", c!"sigma", c!"sim", c!"simeq",
   c!"sqcap", c!"sqcup", c!"sqrt", c!"sqsubset", c!"sqsubseteq", c!"sqsupset", c!"sqsupseteq",
   c!"square", c!"ss", c!"star", c!"subset", c!"subseteq", c!"subseteqq", c!"subsetneq", c!"succ",
   c!"succeq", c!"succsim", c!"sum", c!"supset", c!"supseteq", c!"supseteqq", c!"supsetneq",
   c!"swarrow", c!"tau", c!"text", c!"textbf", c!"textcircled", c!"textdegree", c!"textit",
   c!"textrm", c!"therefore", c!"Theta", c!"theta", c!"tilde", c!"times", c!"top", c!"triangle",
   c!"triangledown", c!"triangleleft", c!"triangleq", c!"triangleright", c!"twoheadleftarrow",
   c!"twoheadrightarrow", c!"ulcorner", c!"underbrace", c!"underline", c!"underset", c!"Uparrow",
   c!"uparrow", c!"Updownarrow", c!"updownarrow", c!"upharpoonleft", c!"upharpoonright", c!"uplus",
   c!"Upsilon", c!"upsilon", c!"upuparrows", c!"varepsilon", c!"varnothing", c!"varphi",
   c!"varrho", c!"vartheta", c!"vartriangleleft", c!"vartriangleright", c!"Vdash", c!"vDash",
   c!"vdash", c!"vdots", c!"vec", c!"vee", c!"wedge", c!"wp", c!"Xi", c!"xi", c!"yen", c!"zeta"]

/-- Control words that these do not define, or not for use in formulas. -/
def otherCommands : List Str :=
  [c!"pho", c!"geg", c!"hcancel", c!"hdots", c!"Epsilon", c!"omicron", c!"cent", c!"euro",
   c!"circle", c!"textdir"]

/-- All control words that are ever written. -/
def vocabulary : List Str := latexCommands ++ otherCommands

/-- Characters, other than ASCII letters, whose symbol begins with an ASCII letter. -/
def disguised : Str := c!"ƒơȼɼΡΥοаорхṁἱⅈ⊕𝑎𝑏𝑐𝑑𝑒𝑓𝑔𝑖𝑗𝑘𝑙𝑚𝑛𝑜𝑝𝑞𝑟𝑠𝑡𝑢𝑣𝑤𝑥𝑦𝑧𝓍𝓎𝓏𝔀𝚟🇽"

/-- A delimiter that does not continue the control word before it. -/
def UngluedDelim (d : Str) : Prop :=
  (∀ c ∈ d, c ≠ '\\') ∧ ∀ c t, d = c :: t → isLetter c = false

/-- Nothing in this element introduces control words or continues them. -/
def UngluedElem : Node → Prop
  | .elem tag A cs =>
    ((tag = c!"mi" ∨ tag = c!"mo") → '\\' ∉ tokenData cs ∨ split (tokenData cs) = [c!"\\"]) ∧
    (tag = c!"mn" → '\\' ∉ tokenData cs) ∧
    (tag = c!"mtext" → ∀ c ∈ tokenData cs, c ∉ disguised) ∧
    (tag = c!"mfenced" → UngluedDelim (attr A c!"open") ∧ UngluedDelim (attr A c!"close") ∧
      (∀ c ∈ attr A c!"separators", c ≠ '\\' ∧ isLetter c = false) ∧
      (HasTable cs → (kids cs).length ≤ 1))
  | _ => True

/-- Nothing in this node introduces control words or continues them. -/
def Unglued (n : Node) : Prop := ∀ x ∈ elementsOf n, UngluedElem x

end Verif.Spec
